import Verif.Proofs.ReaderMember
import Verif.Proofs.Placed
import Verif.Proofs.HandlerPair
import Verif.Spec.Transcode

/-! Decoders and encoders of text. -/

namespace Verif.Engine
open Verif.Spec

variable {π σ : Type}

/-- Two results of a loop that differ in the place of the private data only. -/
def FedOn (e : Lens π σ) : Fed π → Fed σ → Prop
  | .more x out, .more t out' => out = out' ∧ e.get x = t
  | .ret k x out st, .ret k' t out' st' => k = k' ∧ out = out' ∧ st = st' ∧ e.get x = t
  | _, _ => False

theorem feed_on (e : Lens π σ) (m : Machine σ) (bs : List Nat) (x : π) : FedOn e ((m.on e).feed x bs) (m.feed (e.get x) bs) := by
  induction bs generalizing x with
  | nil => exact ⟨rfl, rfl⟩
  | cons b bs ih =>
    rw [Machine.feed, Machine.feed]
    obtain ⟨⟨t1, out, st⟩, hs⟩ : ∃ a, m.step (e.get x) b = a := ⟨_, rfl⟩
    have hs' : (m.on e).step x b = (e.put t1 x, out, st) := by simp only [Machine.on, hs]
    rw [hs, hs']
    cases st with
    | some st => exact ⟨rfl, rfl, rfl, e.get_put _ _⟩
    | none =>
      have := ih (e.put t1 x)
      rw [e.get_put] at this
      simp only
      cases h1 : (m.on e).feed (e.put t1 x) bs <;> cases h2 : m.feed t1 bs <;> rw [h1, h2] at this <;> simp only [FedOn] at this ⊢
      · exact ⟨by rw [this.1], this.2⟩
      · exact ⟨by rw [this.1], by rw [this.2.1], this.2.2.1, this.2.2.2⟩

theorem feed_on_ret {e : Lens π σ} {m : Machine σ} {bs : List Nat} {x : π} {k : Nat} {t : σ} {out : List Datum} {st : Status}
    (h : m.feed (e.get x) bs = .ret k t out st) : ∃ x', (m.on e).feed x bs = .ret k x' out st ∧ e.get x' = t := by
  have := feed_on e m bs x
  rw [h] at this
  cases h1 : (m.on e).feed x bs with
  | more x' o => rw [h1] at this; exact absurd this (by simp [FedOn])
  | ret k' x' o st' =>
    rw [h1] at this
    obtain ⟨rfl, rfl, rfl, h2⟩ := this
    exact ⟨x', rfl, h2⟩

theorem feed_on_more {e : Lens π σ} {m : Machine σ} {bs : List Nat} {x : π} {t : σ} {out : List Datum}
    (h : m.feed (e.get x) bs = .more t out) : ∃ x', (m.on e).feed x bs = .more x' out ∧ e.get x' = t := by
  have := feed_on e m bs x
  rw [h] at this
  cases h1 : (m.on e).feed x bs with
  | more x' o =>
    rw [h1] at this
    obtain ⟨rfl, h2⟩ := this
    exact ⟨x', rfl, h2⟩
  | ret k' x' o st' => rw [h1] at this; exact absurd this (by simp [FedOn])

theorem read_next {m : Machine π} {J : π → Prop} (hm : m.Plain J) {bs : List Nat} (hb : ∀ b ∈ bs, b < 256) {x x' : π} {u : List Nat} (hx : J x)
    {k : Nat} {out : List Datum} (h : m.feed x bs = .ret k x' out .nextphase) : m.reader.read x u bs = .done (bs.drop k) x' out := by
  have := feed_read hm bs hb x u hx
  rw [h] at this
  obtain ⟨_, _, h2⟩ := this
  simp only at h2
  conv => lhs; rw [← List.take_append_drop k bs]
  rw [read_append, h2]
  rfl

theorem read_dead {m : Machine π} {J : π → Prop} (hm : m.Plain J) {bs : List Nat} (hb : ∀ b ∈ bs, b < 256) {x x' : π} {u : List Nat} (hx : J x)
    {k : Nat} {out : List Datum} (h : m.feed x bs = .ret k x' out .deadend) : m.reader.read x u bs = .dead x' := by
  have := feed_read hm bs hb x u hx
  rw [h] at this
  obtain ⟨_, _, h2⟩ := this
  simp only at h2
  conv => lhs; rw [← List.take_append_drop k bs]
  rw [read_append, h2.2]

theorem feed_inv {m : Machine σ} {J : σ → Prop} (hm : m.Plain J) (bs : List Nat) {t t' : σ} (ht : J t) (hb : ∀ b ∈ bs, b < 256) {k : Nat}
    {out : List Datum} {st : Status} (h : m.feed t bs = .ret k t' out st) : J t' := by
  induction bs generalizing t k out with
  | nil => simp [Machine.feed] at h
  | cons b bs ih =>
    have h1 := (hm t b ht (hb b (by simp))).1
    rw [Machine.feed] at h
    obtain ⟨⟨t1, o, s1⟩, hs⟩ : ∃ a, m.step t b = a := ⟨_, rfl⟩
    rw [hs] at h h1
    cases s1 with
    | some s1 => simp only [Fed.ret.injEq] at h; rw [← h.2.1]; exact h1
    | none =>
      simp only at h
      cases h2 : m.feed t1 bs with
      | more t2 o2 => rw [h2] at h; simp at h
      | ret k2 t2 o2 s2 =>
        rw [h2] at h
        simp only [Fed.ret.injEq] at h
        obtain ⟨_, rfl, _, rfl⟩ := h
        exact ih h1 (fun b hb' => hb b (by simp [hb'])) h2

theorem flatMap_bytes {enc : Nat → List Nat} {valid : Nat → Prop} (he : ∀ cp, valid cp → IsBytes (enc cp)) {cps : List Nat}
    (h : ∀ cp ∈ cps, valid cp) : IsBytes (cps.flatMap enc) := by
  intro b hb
  obtain ⟨cp, hc, hb'⟩ := List.mem_flatMap.1 hb
  exact he cp (h cp hc) b hb'

/-! ### One decoder with the table `* ?` -/

/-- The phase `s` has just the decoder `m` with the table `* ?`. -/
structure DecoderPhase (s : Static π) (e : Lens π σ) (m : Machine σ) : Prop where
  isFrom : s.type = .from_
  one : s.codecn = 0
  codec : ∃ fl, s.codecs 0 = anyByte (m.on e).conv fl

theorem decoder_readers {s : Static π} {e : Lens π σ} {m : Machine σ} (hs : DecoderPhase s e m) {J : σ → Prop} (hm : m.Plain J) :
    Readers s (fun _ => (m.on e).reader) (fun j x => j = 0 → J (e.get x)) (fun _ => AtAny) where
  isFrom := hs.isFrom
  member := by
    intro j hj
    rw [hs.one] at hj
    obtain rfl : j = 0 := by omega
    obtain ⟨fl, hc⟩ := hs.codec
    have := machine_member (hm.on e) hc
    simp only [true_implies]
    exact this

theorem decoder_real {s : Static π} {e : Lens π σ} {m : Machine σ} (hs : DecoderPhase s e m) {J : σ → Prop} (hm : m.Plain J) {p : Nat → π}
    (hp : J (e.get (p 0))) : Realises s (fun q => q = p) (decoderProc (fun _ => (m.on e).reader) 0 p) := by
  have := reader_realises (decoder_readers hs hm) (p := p) (by rintro j rfl; exact hp)
  rw [hs.one] at this
  exact this

/-- Decoders that together handle every single character decode texts. -/
theorem decodes_of_resume {rs : Nat → Reader π} {n : Nat} {inv : (Nat → π) → Prop} {enc : Nat → List Nat}
    {valid : Nat → Prop} (hb : ∀ cp, valid cp → IsBytes (enc cp) ∧ enc cp ≠ [])
    (hc : ∀ p cp rest, inv p → valid cp → IsBytes rest →
      ∃ p', inv p' ∧ resume rs n 0 p [] (enc cp ++ rest) = (p', some (rest, [uniDatum cp])))
    {p : Nat → π} (hp : inv p) : Decodes (decoderProc rs n p) enc valid where
  dec := rfl
  text := by
    intro cps ds hv hds
    have key : ∀ (cps : List Nat) (p : Nat → π), inv p → (∀ cp ∈ cps, valid cp) →
        (decode rs n p (cps.flatMap enc)).out = textData cps ∧ (decode rs n p (cps.flatMap enc)).errors = 0 := by
      intro cps
      induction cps with
      | nil => intro p _ _; rw [List.flatMap_nil, decode_nil]; exact ⟨rfl, rfl⟩
      | cons cp cps ih =>
        intro p hp hv
        have hcp := hv cp (by simp)
        have hrest := flatMap_bytes (fun cp h => (hb cp h).1) (cps := cps) (fun c h => hv c (by simp [h]))
        obtain ⟨p', h1, h6⟩ := hc _ cp (cps.flatMap enc) hp hcp hrest
        rw [List.flatMap_cons, (decode_some (by simp [(hb cp hcp).2]) h6).1]
        obtain ⟨a, b⟩ := ih p' h1 (fun c h => hv c (by simp [h]))
        simp only [a, b, and_true]
        rfl
    have := key cps p hp hv
    simp only [decoderProc, hds]
    exact ⟨this.1, this.2, trivial, trivial⟩

/-- A decoder that handles every single character decodes texts. -/
theorem decoder_decodes {e : Lens π σ} {m : Machine σ} {J idle : σ → Prop} (hm : m.Plain J) (hJ : ∀ t, idle t → J t) {enc : Nat → List Nat}
    {valid : Nat → Prop} (hb : ∀ cp, valid cp → IsBytes (enc cp) ∧ enc cp ≠ [])
    (hc : ∀ t cp rest, idle t → valid cp → IsBytes rest →
      ∃ t', idle t' ∧ m.feed t (enc cp ++ rest) = .ret (enc cp).length t' [uniDatum cp] .nextphase)
    {p : Nat → π} (hp : idle (e.get (p 0))) : Decodes (decoderProc (fun _ => (m.on e).reader) 0 p) enc valid := by
  refine decodes_of_resume (inv := fun p => idle (e.get (p 0))) hb ?_ hp
  intro p cp rest hp hcp hrest
  obtain ⟨t', h1, h2⟩ := hc _ cp rest hp hcp hrest
  obtain ⟨x', h3, h4⟩ := feed_on_ret h2
  have hall : ∀ b ∈ enc cp ++ rest, b < 256 := by
    intro b hm
    rcases List.mem_append.1 hm with hm | hm
    · exact (hb cp hcp).1 b hm
    · exact hrest b hm
  have h5 := read_next (hm.on e) hall (u := []) (hJ _ hp) h3
  rw [List.drop_left] at h5
  refine ⟨setPriv p 0 x', by simp only [setPriv, if_true, h4]; exact h1, ?_⟩
  rw [resume_eq, h5]

/-! ### A table, then a decoder -/

/-- The phase has the table `R`, none of whose patterns begins another, and then the decoder `m` with the table `* ?`. -/
structure TableDecoder (s : Static π) (R : Rules Nat (List Datum)) (e : Lens π σ) (m : Machine σ) : Prop where
  isFrom : s.type = .from_
  two : s.codecn = 1
  table : Represents (s.codecs 0) R
  codec : ∃ fl, s.codecs 1 = anyByte (m.on e).conv fl

/-- Its readers. -/
def tableThen (R : Rules Nat (List Datum)) (e : Lens π σ) (m : Machine σ) (j : Nat) : Reader π :=
  if j = 0 then Reader.table R else (m.on e).reader

theorem tableDecoder_real {s : Static π} {R : Rules Nat (List Datum)} {e : Lens π σ} {m : Machine σ} (hs : TableDecoder s R e m)
    (hpf : PrefixFree R) (hdat : ∀ p b, lookup R p = some b → ∀ x ∈ b, IsBytes x) {J : σ → Prop} (hm : m.Plain J) {p : Nat → π}
    (hp : J (e.get (p 1))) : Realises s (fun q => q = p) (decoderProc (tableThen R e m) 1 p) := by
  have hR : Readers s (tableThen R e m) (fun j x => j = 1 → J (e.get x)) (fun j => if j = 0 then AtTable (s.codecs 0) else AtAny) := by
    refine ⟨hs.isFrom, ?_⟩
    intro j hj
    rw [hs.two] at hj
    obtain rfl | rfl : j = 0 ∨ j = 1 := by omega
    · exact table_reader hs.table hpf hdat _
    · obtain ⟨fl, hc⟩ := hs.codec
      have := machine_member (hm.on e) hc
      simp only [true_implies]
      exact this
  have := reader_realises hR (p := p) (by rintro j rfl; exact hp)
  rw [hs.two] at this
  exact this

theorem table_skip {R : Rules Nat (List Datum)} {b : Nat} (h : ∀ r ∈ R, ¬ [b] <+: r.1) (t : π) (bs : List Nat) :
    (Reader.table R : Reader π).read t [] (b :: bs) = .dead t := by
  have hl : lookup R ([] ++ [b]) = none := by
    cases hl : lookup R ([] ++ [b]) with
    | none => rfl
    | some o =>
      obtain ⟨r, hr, e, _⟩ := single_lookup_none.lookup_some_mem hl
      exact absurd (by rw [e]; exact List.prefix_refl _) (h r hr)
  have ha : R.any (fun r => ([] ++ [b]).isPrefixOf r.1) = false := by
    rw [← Bool.not_eq_true]
    simp only [List.any_eq_true, not_exists, not_and, List.nil_append]
    intro r hr h2
    exact h r hr (by simpa using h2)
  rw [Reader.read]
  simp only [Reader.table, hl, ha, Bool.false_eq_true, if_false]

/-- A character whose first byte the table does not know, given to the decoder behind. -/
theorem tableDecoder_resume {R : Rules Nat (List Datum)} {e : Lens π σ} {m : Machine σ} {J : σ → Prop} (hm : m.Plain J) {p : Nat → π}
    (hp : J (e.get (p 1))) {u rest : List Nat} {out : List Datum} {t' : σ} (hu : u ≠ []) (hb : IsBytes (u ++ rest))
    (hR : ∀ r ∈ R, ∀ b, u.head? = some b → ¬ [b] <+: r.1)
    (hf : m.feed (e.get (p 1)) (u ++ rest) = .ret u.length t' out .nextphase) :
    ∃ x', e.get x' = t' ∧ resume (tableThen R e m) 1 0 p [] (u ++ rest) = (setPriv p 1 x', some (rest, out)) := by
  obtain ⟨x', h3, h4⟩ := feed_on_ret hf
  have h5 := read_next (hm.on e) hb (u := []) hp h3
  rw [List.drop_left] at h5
  refine ⟨x', h4, ?_⟩
  obtain ⟨b, u', rfl⟩ := List.exists_cons_of_ne_nil hu
  have h6 : (tableThen R e m 0).read (p 0) [] (b :: u' ++ rest) = .dead (p 0) := table_skip (fun r hr => hR r hr b rfl) _ _
  have hsp : setPriv p 0 (p 0) = p := by
    funext k; simp only [setPriv]; split
    · rename_i h; rw [h]
    · rfl
  rw [resume_eq, h6]
  simp only [hsp, retry]
  rw [resume_eq, List.nil_append]
  have e1 : tableThen R e m (0 + 1) = (m.on e).reader := rfl
  rw [e1, h5]

/-! ### Encoders -/

/-- An encoder without private data as a handler. -/
def encHandler (f : Datum → Option (List Datum)) : Handler π where
  act := fun t d => (f d).map fun out => (t, out, false)

theorem encHandler_conv (f : Datum → Option (List Datum)) : (encHandler f : Handler π).conv = encodeConv f := by
  funext l
  simp only [Handler.conv, encHandler, encodeConv]
  cases f (l.prev.get l.ph.curr) with
  | none => rfl
  | some out =>
    simp only [Option.map_some, Bool.false_eq_true, if_false]
    have : setPriv l.ph.priv l.ph.index (l.ph.priv l.ph.index) = l.ph.priv := by
      funext k; simp only [setPriv]; split
      · rename_i h; rw [h]
      · rfl
    rw [this]

theorem encHandler_noHold (f : Datum → Option (List Datum)) : ¬ Holds (encHandler f : Handler π) := by
  rintro ⟨t, d, t', o, h⟩
  simp only [encHandler] at h
  cases f d <;> simp at h

/-- The encoder behind the table `01* ?`: it sees unicode data only. -/
def uniEnc (f : Datum → Option (List Datum)) (d : Datum) : Option (List Datum) :=
  match d with
  | 1 :: _ :: _ => f d
  | _ => none

/-- Codec `j` of the phase has no private data and does `f` with a datum: a callback behind the table `01* ?` or `* ?`, or a
table of single data. -/
inductive Stateless (s : Static π) (j : Nat) : (Datum → Option (List Datum)) → Prop
  | call (f : Datum → Option (List Datum)) : s.codecs j = uniPrefix (encodeConv f) →
      (∀ d out, IsBytes d → uniEnc f d = some out → ∀ x ∈ out, IsBytes x) → Stateless s j (uniEnc f)
  | table (R : Rules Datum (List Datum)) : Represents (s.codecs j) (symbolRules R) → GoodRules R →
      (∀ r ∈ R, r.1.length ≤ 1) → Stateless s j (fun d => lookup R [d])
  /-- a callback behind the table `* ?` -/
  | any (f : Datum → Option (List Datum)) : s.codecs j = anyByte (encodeConv f) →
      (∀ d out, IsBytes d → f d = some out → ∀ x ∈ out, IsBytes x) → Stateless s j f

theorem encHandler_uni (f : Datum → Option (List Datum)) : (encHandler f : Handler π).uni = encHandler (uniEnc f) := by
  unfold Handler.uni encHandler
  congr 1
  funext t d
  unfold uniEnc
  simp only
  rcases d with _ | ⟨x, _ | ⟨y, t⟩⟩
  · rfl
  · rcases x with _ | _ | x <;> rfl
  · rcases x with _ | _ | x <;> rfl

theorem Stateless.member {s : Static π} (hn : s.type ≠ .from_) {j : Nat} {f : Datum → Option (List Datum)} (h : Stateless s j f) :
    Member s j (encHandler f) (fun d => d ≠ [1]) := by
  cases h with
  | call f h hb =>
    rw [← encHandler_uni]
    exact uni_member hn (by rw [h, encHandler_conv]) (encHandler_noHold f)
  | table R h1 h2 h3 => exact (table_member hn h1 h2 h3).mono (fun _ _ => trivial)
  | any f h hb => exact (any_member (h := encHandler f) hn (by rw [h, encHandler_conv]) (.inr ⟨rfl, fun _ => rfl⟩)).mono (fun _ _ => trivial)

theorem lookup_mem {R : Rules Datum (List Datum)} {p : List Datum} {b : List Datum} (h : lookup R p = some b) : ∃ r ∈ R, r.1 = p ∧ r.2 = b := by
  induction R with
  | nil => simp [lookup] at h
  | cons r S ih =>
    simp only [lookup] at h
    split at h
    · rename_i e; exact ⟨r, by simp, e, by simpa using h⟩
    · obtain ⟨r', h1, h2⟩ := ih h
      exact ⟨r', by simp [h1], h2⟩

theorem Stateless.bytes {s : Static π} {j : Nat} {f : Datum → Option (List Datum)} (h : Stateless s j f) {d : Datum} (hd : IsBytes d)
    {out : List Datum} (ho : f d = some out) : ∀ x ∈ out, IsBytes x := by
  cases h with
  | call f h hb => exact hb d out hd ho
  | table R h1 h2 h3 =>
    obtain ⟨r, hr, _, e⟩ := lookup_mem ho
    intro x hx
    exact ((h2 r hr).2.2.2 x (by rw [e]; exact hx)).2
  | any f h hb => exact hb d out hd ho

/-- The first of `k` functions from the `j`-th on that takes the datum. -/
def firstOf (fs : Nat → Datum → Option (List Datum)) (d : Datum) : (j k : Nat) → Option (List Datum)
  | _, 0 => none
  | j, k + 1 =>
    match fs j d with
    | some o => some o
    | none => firstOf fs d (j + 1) k

/-- The phase consists of codecs without private data. -/
structure EncoderPhase (s : Static π) (ty : PType) (n : Nat) (fs : Nat → Datum → Option (List Datum)) : Prop where
  type : s.type = ty
  notFrom : ty ≠ .from_
  codecn : s.codecn = n
  codec : ∀ j, j ≤ n → Stateless s j (fs j)

/-- Codecs without private data as a processor: every datum goes to the first that takes it; what none takes is passed on,
or dropped and counted.  The single byte 01 is not described: the wildcard of the table `01* ?` takes its separator, and the
refusal waits for the next datum. -/
def encoderProc (π : Type) (pass : Bool) (f : Datum → Option (List Datum)) : Proc π where
  out := fun ds => (nonEmpty ds).flatMap fun d => (f d).getD (if pass then [d] else [])
  outErrors := fun ds => if pass then 0 else ((nonEmpty ds).filter fun d => (f d).isNone).length
  ok := fun ds => ∀ d ∈ nonEmpty ds, d ≠ [1]

theorem enc_attempt (fs : Nat → Datum → Option (List Datum)) {hs : Nat → Handler π} {n : Nat}
    (h0 : ∀ j, j ≤ n → hs j = encHandler (fs j)) (p : Nat → π) (d : Datum) :
    ∀ k j, j + k ≤ n + 1 →
    match attempt hs p d j k with
    | none => firstOf fs d j k = none
    | some (i, t, o, hold) => firstOf fs d j k = some o ∧ t = p i ∧ hold = false := by
  intro k
  induction k with
  | zero => intro j _; rfl
  | succ k ih =>
    intro j hj
    rw [attempt, firstOf, h0 j (by omega)]
    simp only [encHandler]
    cases fs j d with
    | some o => exact ⟨rfl, rfl, rfl⟩
    | none => exact ih (j + 1) (by omega)

theorem enc_handle (pass : Bool) (fs : Nat → Datum → Option (List Datum)) {hs : Nat → Handler π} {n : Nat}
    (h0 : ∀ j, j ≤ n → hs j = encHandler (fs j)) (p : Nat → π) (ds : List Datum) :
    (handle pass hs n none p ds).out = ds.flatMap (fun d => (firstOf fs d 0 (n + 1)).getD (if pass then [d] else [])) ∧
    (handle pass hs n none p ds).refused = (ds.filter fun d => (firstOf fs d 0 (n + 1)).isNone).length := by
  induction ds generalizing p with
  | nil => exact ⟨rfl, rfl⟩
  | cons d ds ih =>
    have hc := enc_attempt fs h0 p d (n + 1) 0 (by omega)
    rw [handle_cons]
    simp only [choose]
    cases ha : attempt hs p d 0 (n + 1) with
    | none =>
      rw [ha] at hc
      simp only at hc
      obtain ⟨a, b⟩ := ih p
      simp only [a, b, List.flatMap_cons, hc]
      simp
      simp [hc]
    | some r =>
      obtain ⟨i, t, o, hold⟩ := r
      rw [ha] at hc
      obtain ⟨hc, _, rfl⟩ := hc
      obtain ⟨a, b⟩ := ih (setPriv p i t)
      simp only [Bool.false_eq_true, if_false, a, b, List.flatMap_cons, hc]
      simp [hc]

theorem encoder_real {s : Static π} {ty : PType} {n : Nat} {fs : Nat → Datum → Option (List Datum)} (hs : EncoderPhase s ty n fs)
    (p : Nat → π) : Realises s (fun q => q = p) (encoderProc π (ty == .inter) (fun d => firstOf fs d 0 (n + 1))) := by
  have hn : s.type ≠ .from_ := by rw [hs.type]; exact hs.notFrom
  have hH : Handlers s (fun j => if j ≤ n then (encHandler (fs j) : Handler π) else Handler.never) (fun _ _ => True)
      (fun d => d ≠ [1]) := by
    refine ⟨hn, ?_, ?_, ?_⟩
    · intro j hj
      rw [hs.codecn] at hj
      simp only [if_pos hj]
      exact (hs.codec j hj).member hn
    · intro j t d _ hd hb t' out b h
      refine ⟨trivial, ?_⟩
      by_cases hj : j ≤ n
      · simp only [if_pos hj, encHandler, Option.map_eq_some_iff, Prod.mk.injEq] at h
        obtain ⟨o, ho, rfl, rfl, rfl⟩ := h
        exact ⟨(hs.codec j hj).bytes hb ho, by simp⟩
      · simp only [if_neg hj, Handler.never] at h; simp at h
    · intro j t _
      refine ⟨trivial, ?_⟩
      by_cases hj : j ≤ n
      · simp [if_pos hj, encHandler]
      · simp [if_neg hj, Handler.never]
  have hp : passes s = (ty == .inter) := by simp [passes, hs.type]
  have := handler_realises_on hH (p := p) (fun _ => trivial)
  rw [hp, hs.codecn] at this
  refine this.as rfl (fun _ _ h => h) ?_
  intro ds _ _
  obtain ⟨a, b⟩ := enc_handle (ty == .inter) fs (hs := fun j => if j ≤ n then (encHandler (fs j) : Handler π) else Handler.never)
    (fun j hj => if_pos hj) p (nonEmpty ds)
  refine ⟨a, rfl, ?_, fun _ _ => trivial⟩
  simp only [handlerProc, encoderProc, b]

theorem nonEmpty_text (cps : List Nat) : nonEmpty (textData cps) = textData cps := by
  unfold textData
  induction cps with
  | nil => rfl
  | cons c cps ih => rw [List.map_cons, nonEmpty_cons (by simp [uniDatum]), ih]

theorem beBytes_ne (n : Nat) : beBytes n ≠ [] := by
  rw [beBytes]; split <;> simp

theorem beBytes_bytes (n : Nat) : IsBytes (beBytes n) := by
  induction n using Nat.strongRecOn with
  | ind n ih =>
    rw [beBytes]
    split
    · intro b hb; simp at hb; omega
    · intro b hb
      rcases List.mem_append.1 hb with hb | hb
      · exact ih (n / 256) (by omega) b hb
      · simp at hb; omega

theorem uniEnc_uni (f : Datum → Option (List Datum)) (cp : Nat) : uniEnc f (uniDatum cp) = f (uniDatum cp) := by
  unfold uniDatum
  obtain ⟨a, t, h⟩ := List.exists_cons_of_ne_nil (beBytes_ne cp)
  rw [h]; rfl

/-- An encoder described for every code point encodes texts. -/
theorem encoder_encodes {f : Datum → Option (List Datum)} {enc : Nat → List Nat} {takes : Nat → Bool} {valid : Nat → Prop}
    (h : ∀ cp, valid cp → f (uniDatum cp) = if takes cp then some [enc cp] else none) : Encodes (encoderProc π false f) enc takes valid where
  dec := rfl
  text := by
    intro cps hv
    simp only [encoderProc, nonEmpty_text, Bool.false_eq_true, if_false]
    refine ⟨?_, trivial, ?_, ?_⟩ <;> unfold textData
    · induction cps with
      | nil => rfl
      | cons c cps ih =>
        rw [List.map_cons, List.flatMap_cons, ih (fun d hd => hv d (by simp [hd])), h c (hv c (by simp))]
        cases hc : takes c <;> simp [hc]
    · induction cps with
      | nil => rfl
      | cons c cps ih =>
        have ih := ih (fun d hd => hv d (by simp [hd]))
        rw [List.map_cons, List.filter_cons, List.filter_cons, h c (hv c (by simp))]
        cases hc : takes c <;> simp [ih]
    · intro d hd
      obtain ⟨c, _, rfl⟩ := List.mem_map.1 hd
      intro e
      exact beBytes_ne c (by simpa [uniDatum] using e)

/-! ### From one encoding to another -/

/-- The instance decodes the bytes `T` with `D` to the text `cps`, rewrites with `mid` and encodes with `E`. -/
theorem transcodeFrom {st : Nat → Static π} {ip : Nat → Nat → π → π} {ins : Ins π} {D E : Proc π} {mid : List (Proc π)}
    {encB : Nat → List Nat} {takes : Nat → Bool} {okB : Nat → Prop} {T cps : List Nat} (hT : IsBytes T)
    (hD : ∀ ds, ds.flatten = T → D.out ds = textData cps ∧ D.inErrors ds = 0 ∧ D.outErrors ds = 0 ∧ D.ok ds) (hE : Encodes E encB takes okB)
    (hc : Converts st ip ins (D :: (mid ++ [E]))) (cps' : List Nat) (hcps' : ∀ cp ∈ cps', okB cp)
    (hmid : OkRest mid (textData cps)) (hout : runProcs mid (textData cps) = textData cps') :
    ∀ (as : List Arg) (a : Arg), (∀ x ∈ as, x.flush = false) → a.flush = true → (∀ x ∈ as ++ [a], x.mode ≠ .null) →
      ((as ++ [a]).filterMap (fun x => x.input)).flatten = T →
      ∃ ds ins', Session st (ins.init st ip) (as ++ [a]) ds ins' ∧
        (ds.map (fun d => d.bytes)).flatten ++ ins'.pending.flatten = (cps'.filter takes).flatMap encB ∧
        ins'.ierr = ins.ierr ∧ ins'.oerr = ins.oerr + runOut mid (textData cps) + (cps'.filter fun cp => !takes cp).length := by
  intro as a h1 h2 h3 h4
  obtain ⟨d1, d2, d3, d4⟩ := hD _ h4
  obtain ⟨e1, e2, e3, e4⟩ := hE.text cps' hcps'
  have hmidrun : ∀ (L : List (Proc π)) (ds : List Datum), runProcs (L ++ [E]) ds = E.out (runProcs L ds) ∧
      runOut (L ++ [E]) ds = runOut L ds + E.outErrors (runProcs L ds) ∧ runIn (L ++ [E]) ds = runIn L ds + E.inErrors (runProcs L ds) ∧
      (OkRest L ds → E.inErrors (runProcs L ds) = 0 → E.ok (runProcs L ds) → OkRest (L ++ [E]) ds) ∧ (OkRest L ds → runIn L ds = 0) := by
    intro L
    induction L with
    | nil => intro ds; simp [runProcs, runOut, runIn, OkRest]; exact fun a b => ⟨a, b⟩
    | cons p L ih =>
      intro ds
      obtain ⟨a, b, c, d, e⟩ := ih (p.out ds)
      simp only [List.cons_append, runProcs, runOut, runIn, OkRest, a, b, c]
      refine ⟨trivial, by omega, by omega, fun h x y => ⟨h.1, h.2.1, d h.2.2 x y⟩, fun h => by rw [h.1, e h.2.2]⟩
  obtain ⟨m1, m2, m3, m4, m5⟩ := hmidrun mid (textData cps)
  rw [hout] at m1 m2 m3 m4
  have hinb : ∀ x ∈ as ++ [a], ∀ c ∈ x.input, IsBytes c := by
    intro x hx c hc b hb
    apply hT
    rw [← h4, List.mem_flatten]
    exact ⟨c, List.mem_filterMap.2 ⟨x, hx, hc⟩, hb⟩
  obtain ⟨ds, ins', k1, k2, k3, k4, k5, k6⟩ := hc as a h1 h2 h3 hinb _ rfl ⟨.inl d2, d4, by rw [d1]; exact m4 hmid e2 e4⟩
  refine ⟨ds, ins', k1, ?_, ?_, ?_⟩
  · rw [k2]
    simp only [runProcs]
    rw [d1, m1, e1, List.flatMap_def]
  · rw [k4]
    simp only [runIn]
    rw [d1, d2, m3, m5 hmid, e2]; omega
  · rw [k5]
    simp only [runOut]
    rw [d1, d3, m2, e3]; omega

/-- The instance decodes with `D`, rewrites with `mid` and encodes with `E`. -/
theorem transcode {st : Nat → Static π} {ip : Nat → Nat → π → π} {ins : Ins π} {D E : Proc π} {mid : List (Proc π)}
    {encA encB : Nat → List Nat} {takes : Nat → Bool} {okA okB : Nat → Prop} (hD : Decodes D encA okA) (hE : Encodes E encB takes okB)
    (hA : ∀ cp, okA cp → IsBytes (encA cp)) (hc : Converts st ip ins (D :: (mid ++ [E])))
    (cps cps' : List Nat) (hcps : ∀ cp ∈ cps, okA cp) (hcps' : ∀ cp ∈ cps', okB cp)
    (hmid : OkRest mid (textData cps)) (hout : runProcs mid (textData cps) = textData cps') :
    ∀ (as : List Arg) (a : Arg), (∀ x ∈ as, x.flush = false) → a.flush = true → (∀ x ∈ as ++ [a], x.mode ≠ .null) →
      ((as ++ [a]).filterMap (fun x => x.input)).flatten = cps.flatMap encA →
      ∃ ds ins', Session st (ins.init st ip) (as ++ [a]) ds ins' ∧
        (ds.map (fun d => d.bytes)).flatten ++ ins'.pending.flatten = (cps'.filter takes).flatMap encB ∧
        ins'.ierr = ins.ierr ∧ ins'.oerr = ins.oerr + runOut mid (textData cps) + (cps'.filter fun cp => !takes cp).length := by
  exact transcodeFrom (flatMap_bytes hA hcps) (fun ds h => hD.text cps ds hcps h) hE hc cps' hcps' hmid hout

end Verif.Engine
