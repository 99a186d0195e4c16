import Verif.Proofs.TerminateAll
import Verif.Props.Engine
import Verif.Props.Transcode
import Verif.Props.Replace
/-
C06: every call of `bsdconv()` comes to its end.
-/
namespace Verif.Props
open Verif.Spec
open Verif.Engine hiding Datum step
open Verif.Inter (plain flushing)

variable {π : Type}

/-- Whatever is fed to an instance in whatever pieces, decodable or not, with whatever output modes and flushes: every call
returns, without ever running into undefined behaviour, provided the codecs are `Proper` and no FROM phase follows a FROM phase. -/
theorem C06_terminates {st : Nat → Static π} {ins : Ins π} (h : Orderly st ins.phasen) (initPriv : Nat → Nat → π → π) (args : List Arg) :
    ∃ ds ins', Session st (ins.init st initPriv) args ds ins' := by
  obtain ⟨ds, ins', hs, _⟩ := alive_session ins.phasen (orderly_sane h) args (ins.init st initPriv) rfl (alive_init st ins initPriv)
  exact ⟨ds, ins', hs⟩

/-- … and from then on too: after any history of calls, any further call returns. -/
theorem C06_next {st : Nat → Static π} {ins : Ins π} (h : Orderly st ins.phasen) (initPriv : Nat → Nat → π → π) (args : List Arg)
    {ds : List Delivery} {ins' : Ins π} (hs : Session st (ins.init st initPriv) args ds ins') (a : Arg) : ∃ d ins'', Call st ins' a d ins'' := by
  obtain ⟨es, i2, hl⟩ := C06_terminates (ins := ins) h initPriv (args ++ [a])
  have det : ∀ {c : Ins π × PC} {m n : Nat} {i j : Ins π}, run st m c = (i, .done) → run st n c = (j, .done) → i = j := by
    intro c m n i j h1 h2
    have stay : ∀ (k : Nat) (i : Ins π), run st k (i, .done) = (i, .done) := by
      intro k
      induction k with
      | zero => intro i; rfl
      | succ k ih => intro i; exact ih i
    rcases Nat.le_total m n with hle | hle
    · obtain ⟨k, rfl⟩ := Nat.exists_eq_add_of_le hle
      rw [run_add, h1, stay] at h2
      exact congrArg Prod.fst h2
    · obtain ⟨k, rfl⟩ := Nat.exists_eq_add_of_le hle
      rw [run_add, h2, stay] at h1
      exact (congrArg Prod.fst h1).symm
  have split : ∀ (args : List Arg) (i i' : Ins π) (ds es : List Delivery) (i2 : Ins π), Session st i args ds i' → Session st i (args ++ [a]) es i2 →
      ∃ d i'', Call st i' a d i'' := by
    intro args
    induction args with
    | nil =>
      intro i i' ds es i2 h1 h2
      cases h1
      cases h2 with
      | cons hc _ => exact ⟨_, _, hc⟩
    | cons x xs ih =>
      intro i i' ds es i2 h1 h2
      cases h1 with
      | cons c1 r1 =>
        cases h2 with
        | cons c2 r2 =>
          obtain ⟨m, j1, e1, _, rfl⟩ := c1
          obtain ⟨n, j2, e2, _, rfl⟩ := c2
          have := det e1 e2
          subst this
          exact ih _ _ _ _ _ r1 r2
  exact split args _ _ _ _ _ hs hl

/-- In particular with table codecs, whose rules all have data. -/
theorem C06_tables {st : Nat → Static π} {L : List Phase} (h : Implements st L) (hf : ∀ k j, ((st k).codecs j).flush = none) {ins : Ins π}
    (hn : ins.phasen = L.length) (initPriv : Nat → Nat → π → π) (args : List Arg) : ∃ ds ins', Session st (ins.init st initPriv) args ds ins' := by
  refine C06_terminates ⟨?_, ?_⟩ initPriv args
  · intro k h1 h2 j hj
    have ht := h.tables (k - 1) (by omega)
    have e : k - 1 + 1 = k := by omega
    rw [e] at ht
    cases hp : L[k - 1]'(by omega) with
    | decode Rs =>
      rw [hp] at ht
      obtain ⟨_, t2, t3, t4⟩ := ht
      exact proper_table (t3 j (by omega)) (fun r hr => (t4 _ (List.getElem_mem _) r hr).2.1) (hf k j)
    | rewrite Rs =>
      rw [hp] at ht
      obtain ⟨_, t2, t3, t4⟩ := ht
      refine proper_table (t3 j (by omega)) ?_ (hf k j)
      intro r hr
      obtain ⟨r', hr', rfl⟩ := List.mem_map.1 hr
      exact (t4 _ (List.getElem_mem _) r' hr').2.2.1
    | encode Rs =>
      rw [hp] at ht
      obtain ⟨_, t2, t3, t4⟩ := ht
      refine proper_table (t3 j (by omega)) ?_ (hf k j)
      intro r hr
      obtain ⟨r', hr', rfl⟩ := List.mem_map.1 hr
      exact (t4 _ (List.getElem_mem _) r' hr').2.2.1
  · intro k h1 h2 ht hk
    have e : k - 1 + 1 = k := by omega
    have a1 := h.tables (k - 1) (by omega)
    have a2 := h.tables k (by omega)
    rw [e] at a1
    have d1 : isDecode (L[k - 1]'(by omega)) = true := by
      cases hp : L[k - 1]'(by omega) with
      | decode Rs => rfl
      | rewrite Rs => rw [hp] at a1; exact absurd a1.1 (by rw [hk]; simp)
      | encode Rs => rw [hp] at a1; exact absurd a1.1 (by rw [hk]; simp)
    have d2 : isDecode (L[k]'(by omega)) = true := by
      cases hp : L[k]'(by omega) with
      | decode Rs => rfl
      | rewrite Rs => rw [hp] at a2; exact absurd a2.1 (by rw [ht]; simp)
      | encode Rs => rw [hp] at a2; exact absurd a2.1 (by rw [ht]; simp)
    have := h.alt (k - 1) (by omega) d1
    simp only [e] at this
    rw [d2] at this
    simp at this

/-! ### The Unicode encodings -/

/-- The decoder asks for a possible longer match only with the options CESU and LOOSE together. -/
theorem utf8_calm {o : Utf8.Opts} (ho : ¬(o.cesu = true ∧ o.loose = true)) (t : Utf8.Priv) (d : Nat) (s : Status)
    (h : (Utf8.step o t d).2.2 = some s) : s ∈ [Status.cont, .deadend, .match_, .nextphase] := by
  have dd : ∀ out, (Utf8.dead out).2.2 = some s → s ∈ [Status.cont, .deadend, .match_, .nextphase] := by
    intro out h
    simp only [Utf8.dead, Option.some.injEq] at h
    simp [← h]
  have cc : ∀ t, (Utf8.commit o t).2.2 = some s → s ∈ [Status.cont, .deadend, .match_, .nextphase] := by
    intro t h
    unfold Utf8.commit Utf8.pass Utf8.dead at h
    simp only at h
    repeat' split at h
    all_goals first
      | (simp only [Option.some.injEq] at h; simp [← h]; done)
      | exact absurd ⟨by assumption, by assumption⟩ ho
  have ss : ∀ (u : Utf8.Ucs) (t : Utf8.Priv), (Utf8.short o u (t, [], none)).2.2 = some s → s ∈ [Status.cont, .deadend, .match_, .nextphase] := by
    intro u t h
    unfold Utf8.short at h
    split at h
    · exact dd _ h
    · simp at h
  have no : ∀ (x : Utf8.Priv × List Datum), (x.1, x.2, (none : Option Status)).2.2 = some s → s ∈ [Status.cont, .deadend, .match_, .nextphase] := by
    intro x h
    simp at h
  have ll : ∀ t, (Utf8.last o t d).2.2 = some s → s ∈ [Status.cont, .deadend, .match_, .nextphase] := by
    intro t h
    unfold Utf8.last at h
    split at h
    · exact cc _ h
    · exact dd _ h
  have m1 : ∀ t x, (Utf8.mid1 t d x).2.2 = some s → s ∈ [Status.cont, .deadend, .match_, .nextphase] := by
    intro t x h
    unfold Utf8.mid1 at h
    simp only at h
    split at h
    · simp at h
    · exact dd _ h
  have m2 : ∀ t x, (Utf8.mid2 t d x).2.2 = some s → s ∈ [Status.cont, .deadend, .match_, .nextphase] := by
    intro t x h
    unfold Utf8.mid2 at h
    simp only at h
    split at h
    · simp at h
    · exact dd _ h
  unfold Utf8.step at h
  simp only at h
  repeat' split at h
  all_goals first
    | exact dd _ h
    | exact ll _ h
    | exact m1 _ _ h
    | exact m2 _ _ h
    | exact ss _ _ h
    | exact no (_, _) h

theorem utf16_calm (le : Bool) (t : Utf16.Priv) (d : Nat) (s : Status) (h : (Utf16.step16 le t d).2.2 = some s) :
    s ∈ [Status.cont, .deadend, .match_, .nextphase] := by
  unfold Utf16.step16 at h
  simp only at h
  repeat' split at h
  all_goals first
    | (simp at h; done)
    | (simp only [Option.some.injEq] at h; simp [← h])

theorem utf32_calm (le : Bool) (t : Utf16.Priv) (d : Nat) (s : Status) (h : (Utf16.step32 le t d).2.2 = some s) :
    s ∈ [Status.cont, .deadend, .match_, .nextphase] := by
  unfold Utf16.step32 at h
  simp only at h
  repeat' split at h
  all_goals first
    | (simp at h; done)
    | (simp only [Option.some.injEq] at h; simp [← h])

/-- A decoder of that kind, its private data part of the phase's, is `Proper` in a FROM phase. -/
theorem proper_machine {σ : Type} {lone : Prop} {e : Lens π σ} {m : Machine σ} (hm : ∀ x d s, (m.step x d).2.2 = some s → s ∈ [Status.cont, .deadend, .match_, .nextphase])
    (hl : ¬lone) (fl : Option (Loc π → Loc π)) : Proper .from_ lone (anyByte (m.on e).conv fl) := by
  refine proper_any (convOk_machine _ ?_ rfl) (fun h => absurd h hl)
  intro x d y o s h
  refine hm (e.get x) d s ?_
  simp only [Machine.on, Prod.mk.injEq] at h
  exact h.2.2

/-- The codecs of a phase that reads an encoding. -/
theorem source_proper {s : Static π} {p : Nat → π} {a : Source} (h : a.Is s p) :
    s.type = .from_ ∧ ∀ j, j ≤ s.codecn → Proper s.type (s.type ≠ .from_ ∧ s.codecn = 0) (s.codecs j) := by
  cases h with
  | utf8 e h hz =>
    refine ⟨h.isFrom, ?_⟩
    intro j hj
    have hj : j = 0 ∨ j = 1 := by rw [h.two] at hj; omega
    rcases hj with rfl | rfl
    · refine proper_rules h.table ?_ (fun k => absurd h.isFrom k.1)
      intro p b hb _
      left
      obtain ⟨c, _, _, _, rfl⟩ := (fromAscii_lookup _ _).1 hb
      simp
    · obtain ⟨fl, hc⟩ := h.codec
      rw [hc, h.isFrom]
      exact proper_machine (utf8_calm (by simp)) (by simp) _
  | utf16 le e h _ _ =>
    refine ⟨h.isFrom, ?_⟩
    intro j hj
    have hj : j = 0 := by rw [h.one] at hj; omega
    subst hj
    obtain ⟨fl, hc⟩ := h.codec
    rw [hc, h.isFrom]
    exact proper_machine (utf16_calm le) (by simp) _
  | utf32 le e h _ _ =>
    refine ⟨h.isFrom, ?_⟩
    intro j hj
    have hj : j = 0 := by rw [h.one] at hj; omega
    subst hj
    obtain ⟨fl, hc⟩ := h.codec
    rw [hc, h.isFrom]
    exact proper_machine (utf32_calm le) (by simp) _
  | table R enc valid h1 h2 h3 h4 =>
    refine ⟨h1, ?_⟩
    intro j hj
    have hj : j = 0 := by rw [h2] at hj; omega
    subst hj
    refine proper_rules h3 ?_ (fun k => absurd h1 k.1)
    intro p b hb he
    rw [h4 p b hb] at he
    simp at he
  | tables Rs enc valid h1 h2 h3 =>
    refine ⟨h1, ?_⟩
    intro j hj
    refine proper_rules (h2 j hj).1 ?_ (fun k => absurd h1 k.1)
    intro p b hb _
    left
    exact ((h2 j hj).2.2 _ (Verif.Spec.lookup_mem hb)).1

/-- The codecs of a phase that writes an encoding. -/
theorem target_proper {s : Static π} {b : Target} (h : b.Is s) (hf : ∀ j, (s.codecs j).flush = none) :
    s.type = .to_ ∧ ∀ j, j ≤ s.codecn → Proper s.type (s.type ≠ .from_ ∧ s.codecn = 0) (s.codecs j) := by
  have uni : ∀ {s : Static π} {f : Datum → Option (List Datum)}, Only s .to_ (uniPrefix (encodeConv f)) →
      s.type = .to_ ∧ ∀ j, j ≤ s.codecn → Proper s.type (s.type ≠ .from_ ∧ s.codecn = 0) (s.codecs j) := by
    intro s f h
    refine ⟨h.type, ?_⟩
    intro j hj
    have hj : j = 0 := by rw [h.one] at hj; omega
    subst hj
    rw [h.codec]
    exact proper_uni (convOk_encode f (by rw [h.type]; simp))
  cases h with
  | utf8 h1 h2 h3 h4 =>
    refine ⟨h1, ?_⟩
    intro j hj
    have hj : j = 0 ∨ j = 1 := by rw [h2] at hj; omega
    rcases hj with rfl | rfl
    · rw [h3]
      exact proper_uni (convOk_encode _ (by rw [h1]; simp))
    · refine proper_rules h4 ?_ (fun _ => hf 1)
      intro p b hb _
      left
      have := Verif.Spec.lookup_mem hb
      obtain ⟨r, hr, e⟩ := List.mem_map.1 this
      simp only [Prod.mk.injEq] at e
      rw [← e.2]
      exact (toAscii_good.1 r hr).2.2.1
  | utf16 le h => exact uni h
  | utf32 le h => exact uni h
  | ucs2 le h => exact uni h
  | table R enc takes h1 h2 h3 =>
    refine ⟨h1, ?_⟩
    intro j hj
    have hj : j = 0 := by rw [h2] at hj; omega
    subst hj
    exact proper_rules h3 (fun _ _ _ _ => .inr ⟨by rw [h1]; simp, h2⟩) (fun _ => hf 0)
  | tables Rs enc takes h1 h2 h3 =>
    refine ⟨h1, ?_⟩
    intro j hj
    refine proper_rules (h2 j hj).1 ?_ (fun _ => hf j)
    intro p b hb _
    left
    have := Verif.Spec.lookup_mem hb
    obtain ⟨r, hr, e⟩ := List.mem_map.1 this
    simp only [Prod.mk.injEq] at e
    rw [← e.2]
    exact ((h2 j hj).2.1 r hr).2.2.1

/-- Reading any of the encodings of C63 and writing any of them, every call returns, however broken the input is. -/
theorem C06_transcode {st : Nat → Static π} {ip : Nat → Nat → π → π} {ins : Ins π} {a : Source} {b : Target} (hn : ins.phasen = 2)
    (ha : a.Is (st 1) (initPriv st ip ins 1)) (hb : b.Is (st 2)) (hf : ∀ j, ((st 2).codecs j).flush = none) (args : List Arg) :
    ∃ ds ins', Session st (ins.init st ip) args ds ins' := by
  obtain ⟨a1, a2⟩ := source_proper ha
  obtain ⟨b1, b2⟩ := target_proper hb hf
  refine C06_terminates ⟨?_, ?_⟩ ip args
  · intro k h1 h2 j hj
    have hk : k = 1 ∨ k = 2 := by omega
    rcases hk with rfl | rfl
    · exact a2 j hj
    · exact b2 j hj
  · intro k h1 h2 ht
    have hk : k = 1 := by omega
    subst hk
    rw [b1] at ht
    simp at ht

/-- An inter phase: one callback codec of the shape `Handler` (most of /repo/modules/inter/*.c), or tables whose rules have data. -/
inductive Between (s : Static π) : Prop
  | handler (h : Handler π) : Only s .inter h.anyCodec → Between s
  | tables : s.type = .inter → (∀ j, j ≤ s.codecn → (s.codecs j).flush = none ∧ ∃ S, Represents (s.codecs j) S ∧ ∀ r ∈ S, r.2 ≠ []) → Between s

theorem between_proper {s : Static π} (h : Between s) :
    s.type = .inter ∧ ∀ j, j ≤ s.codecn → Proper s.type (s.type ≠ .from_ ∧ s.codecn = 0) (s.codecs j) := by
  cases h with
  | handler h hs =>
    refine ⟨hs.type, ?_⟩
    intro j hj
    have hj : j = 0 := by rw [hs.one] at hj; omega
    subst hj
    rw [hs.codec]
    refine proper_any (convOk_handler h (by rw [hs.type]; simp) (fun _ => ⟨by rw [hs.type]; simp, hs.one⟩)) ?_
    intro _ f hf l
    simp only [Option.some.injEq] at hf
    subst hf
    exact ⟨_, _, l.ph.status, rfl⟩
  | tables ht hc =>
    refine ⟨ht, ?_⟩
    intro j hj
    obtain ⟨hf, S, h1, h2⟩ := hc j hj
    exact proper_table h1 h2 hf

/-- With any number of such inter phases between the two. -/
theorem C06_chain {st : Nat → Static π} {ip : Nat → Nat → π → π} {ins : Ins π} {a : Source} {b : Target} (n : Nat) (hn : ins.phasen = n + 2)
    (ha : a.Is (st 1) (initPriv st ip ins 1)) (hi : ∀ k, 2 ≤ k → k ≤ n + 1 → Between (st k)) (hb : b.Is (st (n + 2)))
    (hf : ∀ j, ((st (n + 2)).codecs j).flush = none) (args : List Arg) : ∃ ds ins', Session st (ins.init st ip) args ds ins' := by
  obtain ⟨a1, a2⟩ := source_proper ha
  obtain ⟨b1, b2⟩ := target_proper hb hf
  refine C06_terminates ⟨?_, ?_⟩ ip args
  · intro k h1 h2 j hj
    by_cases e1 : k = 1
    · subst e1; exact a2 j hj
    · by_cases e2 : k = n + 2
      · subst e2; exact b2 j hj
      · exact (between_proper (hi k (by omega) (by omega))).2 j hj
  · intro k h1 h2 ht
    exfalso
    by_cases e2 : k + 1 = n + 2
    · rw [e2, b1] at ht
      simp at ht
    · rw [(between_proper (hi (k + 1) (by omega) (by omega))).1] at ht
      simp at ht

/-- The UTF-8 decoder with its options, all but CESU and LOOSE together. -/
theorem C06_utf8 {o : Utf8.Opts} (ho : ¬(o.cesu = true ∧ o.loose = true)) {st : Nat → Static Utf8.Priv} {ip : Nat → Nat → Utf8.Priv → Utf8.Priv}
    {ins : Ins Utf8.Priv} (hn : ins.phasen = 2) (h1 : (st 1).type = .from_) (h2 : (st 1).codecn = 1) (h3 : Represents ((st 1).codecs 0) Ascii.fromRules)
    (h4 : (st 1).codecs 1 = Utf8.codec o) {b : Target} (hb : b.Is (st 2)) (hf : ∀ j, ((st 2).codecs j).flush = none) (args : List Arg) :
    ∃ ds ins', Session st (ins.init st ip) args ds ins' := by
  obtain ⟨b1, b2⟩ := target_proper hb hf
  refine C06_terminates ⟨?_, ?_⟩ ip args
  · intro k k1 k2 j hj
    have hk : k = 1 ∨ k = 2 := by omega
    rcases hk with rfl | rfl
    · have hj : j = 0 ∨ j = 1 := by rw [h2] at hj; omega
      rcases hj with rfl | rfl
      · refine proper_rules h3 ?_ (fun k => absurd h1 k.1)
        intro p b hb _
        left
        obtain ⟨c, _, _, _, rfl⟩ := (fromAscii_lookup _ _).1 hb
        simp
      · rw [h4, h1]
        refine proper_any (convOk_machine _ ?_ rfl) (fun k => absurd rfl k.1)
        intro x d y out s h
        refine utf8_calm ho x d s ?_
        rw [show Utf8.step o x d = (Utf8.machine o).step x d from rfl, h]
    · exact b2 j hj
  · intro k k1 k2 ht
    have hk : k = 1 := by omega
    subst hk
    rw [b1] at ht
    simp at ht

-- Junk bytes, an unfinished character and a lone surrogate through `UTF-8:UTF-16LE`, then more after the flush.
example : ∃ ds ins', Session utf8To16 (utf8Ins.init utf8To16 (fun _ _ _ => .zero))
    [⟨some [0xFF, 0xC0, 0x80, 0xE2], false, .file⟩, ⟨some [0x41, 0xED, 0xA0, 0x80], true, .automalloc 0⟩, ⟨none, true, .null⟩, ⟨some [0xF0, 0x9F], true, .premalloced (some 3)⟩] ds ins' :=
  C06_transcode (a := .utf8) (b := .utf16 true) rfl (utf8To16_source _ rfl) (.utf16 true ⟨rfl, rfl, rfl⟩) (fun _ => rfl) _

-- Rule tables: whatever bytes come in.
example (args : List Arg) : ∃ ds ins', Session (mkAll exL) ((mkIns exL).init (mkAll exL) (fun _ _ p => p)) args ds ins' :=
  C06_tables exL_implements (by intro k j; unfold mkAll mkStatic; split <;> rfl) rfl _ args


/-- `UTF-8:…:UTF-16LE` with one inter phase. -/
def chainConv (h : Handler Utf8.Priv) (k : Nat) : Static Utf8.Priv :=
  if k = 2 then ⟨.inter, fun _ => h.anyCodec, 0⟩ else if k = 1 then utf8To16 1 else utf8To16 2

example (h : Handler Utf8.Priv) (args : List Arg) : ∃ ds ins', Session (chainConv h)
    (Ins.init (chainConv h) (fun _ _ _ => .zero) { ph := fun _ => { priv := fun _ => .zero }, phasen := 3 }) args ds ins' :=
  C06_chain (st := chainConv h) (a := .utf8) (b := .utf16 true) 1 rfl (utf8To16_source _ rfl)
    (by intro k h1 h2; have : k = 2 := by omega
        subst this; exact .handler h ⟨rfl, rfl, rfl⟩) (.utf16 true ⟨rfl, rfl, rfl⟩) (fun _ => rfl) args

/-! ### A conversion that hangs -/

/-- `ASCII,_UTF-8#CESU&LOOSE:UTF-8`. -/
def hangConv (k : Nat) : Static Utf8.Priv :=
  if k = 1 then ⟨.from_, fun j => if j = 0 then trieCodec Ascii.fromRules else Utf8.codec { cesu := true, loose := true }, 1⟩
  else ⟨.to_, fun j => if j = 0 then Utf8.toCodec else trieCodec (symbolRules Ascii.toRules), 1⟩

/-- An instance of it, `bsdconv_init` done. -/
def hangIns : Ins Utf8.Priv := Ins.init hangConv (fun _ _ _ => .zero) { ph := fun _ => { priv := fun _ => .zero }, phasen := 2 }

/-- The state in which the third call finds itself again and again. -/
def hung : Ins Utf8.Priv × PC :=
  ({ ph := fun k => match k with
      | 0 => { q := ⟨[[0xED, 0xA0, 0x80], [0xED, 0xA0, 0x80, 0xFF], [0xED, 0xA0, 0x80]], 3⟩, priv := fun _ => .zero }
      | 1 => { curr := 2, i := 3, bak := 2, consumed := 3, priv := fun _ => .zero }
      | 2 => { i := 3, bak := 2, priv := fun _ => .zero }
      | _ => { priv := fun _ => .zero }
     phasen := 2
     pidx := 1 }, .begin)

theorem hung_priv {f : Nat → Utf8.Priv} (h0 : f 0 = .zero) (h1 : f 1 = .zero) (h2 : ∀ j, f (j + 2) = .zero) : f = fun _ => .zero := by
  funext j
  match j with
  | 0 => exact h0
  | 1 => exact h1
  | j + 2 => exact h2 j

theorem hung_ph {p q : Ph Utf8.Priv} (h : ({ p with priv := fun _ => .zero } : Ph Utf8.Priv) = { q with priv := fun _ => .zero }) (hp : p.priv = q.priv) :
    p = q := by
  cases p
  cases q
  simp_all

theorem hung_ins {x : Ins Utf8.Priv × PC} (h : x.1.ph = hung.1.ph) (h1 : x.1.phasen = 2) (h2 : x.1.pidx = 1) (h3 : x.1.flush = false) (h4 : x.1.ierr = 0)
    (h5 : x.1.oerr = 0) (h6 : x.2 = .begin) : x = hung := by
  obtain ⟨x, pc⟩ := x
  cases x
  simp_all [hung]

/-- State after the first two calls. -/
def hangState : Ins Utf8.Priv :=
  callState hangConv 60 (callState hangConv 60 hangIns ⟨some [0xED, 0xA0, 0x80], false, .file⟩) ⟨some [0xED, 0xA0, 0x80, 0xFF], false, .file⟩

set_option maxRecDepth 100000 in
theorem hung_start : hangState.start (some ([0xED, 0xA0, 0x80], [])) false = hung := by
  refine hung_ins ?_ rfl rfl rfl rfl rfl rfl
  funext k
  match k with
  | 0 => exact hung_ph (by rfl) (hung_priv rfl rfl fun _ => rfl)
  | 1 => exact hung_ph (by rfl) (hung_priv rfl rfl fun _ => rfl)
  | 2 => exact hung_ph (by rfl) (hung_priv rfl rfl fun _ => rfl)
  | k + 3 => exact hung_ph (by rfl) (hung_priv rfl rfl fun _ => rfl)

set_option maxRecDepth 100000 in
theorem hung_again : run hangConv 16 hung = hung := by
  refine hung_ins ?_ rfl rfl rfl rfl rfl rfl
  funext k
  match k with
  | 0 => exact hung_ph (by rfl) (hung_priv rfl rfl fun _ => rfl)
  | 1 => exact hung_ph (by rfl) (hung_priv rfl rfl fun _ => rfl)
  | 2 => exact hung_ph (by rfl) (hung_priv rfl rfl fun _ => rfl)
  | k + 3 => exact hung_ph (by rfl) (hung_priv rfl rfl fun _ => rfl)

/-- C06 is false in general: with the shipped decoder `_UTF-8#CESU&LOOSE` after ASCII, the three chunks `ED A0 80`, `ED A0 80 FF`,
`ED A0 80` make the third call run forever: its loop comes back to the same state (/repo/src/libbsdconv.c:655-664 with `match_data`
NULL resets the phase without freeing what was read, and the next codec starts over at the first chunk). -/
theorem C69_violated : ∃ ds ins', Session hangConv hangIns [⟨some [0xED, 0xA0, 0x80], false, .file⟩, ⟨some [0xED, 0xA0, 0x80, 0xFF], false, .file⟩] ds ins' ∧
    ∀ (mode : Mode) (d : Delivery) (ins'' : Ins Utf8.Priv), ¬Call hangConv ins' ⟨some [0xED, 0xA0, 0x80], false, mode⟩ d ins'' := by
  refine ⟨_, hangState, .cons (call_eval 60 (by decide +kernel)) (.cons (call_eval 60 (by decide +kernel)) (.nil _)), ?_⟩
  rintro mode d ins'' ⟨m, i1, hr, -, -⟩
  simp only [Option.map_some] at hr
  rw [hung_start] at hr
  have stay : ∀ (k : Nat) (i : Ins Utf8.Priv), run hangConv k (i, .done) = (i, .done) := by
    intro k
    induction k with
    | zero => intro i; rfl
    | succ k ih => intro i; exact ih i
  have loops : ∀ k, run hangConv (16 * k) hung = hung := by
    intro k
    induction k with
    | zero => rfl
    | succ k ih => rw [show 16 * (k + 1) = 16 * k + 16 from rfl, run_add, ih, hung_again]
  have e : run hangConv (m + 15 * m) hung = hung := by
    have := loops m
    rw [show m + 15 * m = 16 * m by omega]
    exact this
  rw [run_add, hr, stay] at e
  have := congrArg Prod.snd e
  simp [hung] at this

end Verif.Props
