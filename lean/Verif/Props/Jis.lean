import Verif.Props.Charset
import Verif.Model.Jis
import Verif.Spec.Jis
/-
C81: reading texts that switch between character sets (`JIS` as source).
-/
namespace Verif.Props
open Verif.Spec
open Verif.Engine hiding Datum step

variable {π : Type}

/-- Well-formed tables: the two-byte sets have codes of bytes from 21 on, first byte up to 7E; the one-byte set has not ESC. -/
def jisWide (x : Charset) : Bool := x.fine && x.reads.all fun r => Nat.ble 0x2100 r.1 && Nat.ble (r.1 + r.2.length) 0x7F00 && Nat.ble 0x21 (r.1 % 0x100)
def jisNarrow (x : Charset) : Bool := x.fine && x.reads.all fun r => Nat.ble (r.1 + r.2.length) 0x1B || (Nat.ble 0x1C r.1 && Nat.ble (r.1 + r.2.length) 0x100)
def JisTables.fine (T : JisTables) : Bool := jisNarrow T.x0201 && jisWide T.x0208 && jisWide T.x0212

/-- The phase is `_JIS,ASCII` (/repo/modules/from/alias). -/
structure ReadsJis (s : Static π) (e : Lens π Jis.Priv) (C : Jis.Codecs) (T : JisTables) : Prop where
  isFrom : s.type = .from_
  two : s.codecn = 1
  codec : ∃ fl, s.codecs 0 = anyByte ((Jis.machine C).on e).conv fl
  ascii : Represents (s.codecs 1) Ascii.fromRules
  jis0201 : Represents C.jis0201 T.x0201.fromRules
  jis0208 : Represents C.jis0208 T.x0208.fromRules
  jis0212 : Represents C.jis0212 T.x0212.fromRules

/-! ### The callback -/

/-- The mode of a set. -/
def jisMode : JisSet → Jis.Mode
  | .ascii => .ascii
  | .x0201 => .jis0201
  | .x0208 => .jis0208
  | .x0212 => .jis0212

def jisRules (T : JisTables) : Jis.Mode → Rules Nat (List Datum)
  | .ascii => []
  | .jis0201 => T.x0201.fromRules
  | .jis0208 => T.x0208.fromRules
  | .jis0212 => T.x0212.fromRules

/-- `cstate` is a node of the table of the mode. -/
def JisInv (C : Jis.Codecs) (t : Jis.Priv) : Prop := ∀ c, C.of t.mode = some c → ∃ u, walk c 0 u = some t.cstate

theorem jisInv_root {C : Jis.Codecs} {t : Jis.Priv} (h : t.cstate = 0) : JisInv C t := fun _ _ => ⟨[], by rw [h]; rfl⟩

/-- The tables of the modes. -/
def JisCodecs (C : Jis.Codecs) (T : JisTables) : Prop := ∀ m c, C.of m = some c → Represents c (jisRules T m) ∧ PrefixFree (jisRules T m) ∧
  ∀ r ∈ jisRules T m, r.2 ≠ [] ∧ ∀ d ∈ r.2, IsBytes d

theorem jisWide_fine {x : Charset} (h : jisWide x = true) : x.Fine ∧ ∀ r ∈ x.reads.pairs, 0x2100 ≤ r.1 ∧ r.1 < 0x7F00 ∧ 0x21 ≤ r.1 % 0x100 := by
  unfold jisWide at h
  rw [Bool.and_eq_true] at h
  refine ⟨Charset.fine_iff h.1, ?_⟩
  intro r hr
  obtain ⟨q, hq, hr⟩ := List.mem_flatMap.1 hr
  have h1 := List.all_eq_true.1 h.2 q hq
  simp only [Bool.and_eq_true, Nat.ble_eq] at h1
  have h2 := Chart.run_lt hr
  have h3 := h.1
  unfold Charset.fine at h3
  simp only [Bool.and_eq_true] at h3
  have h4 := List.all_eq_true.1 h3.2 q hq
  simp only [Bool.or_eq_true, Bool.and_eq_true, Nat.ble_eq, Nat.beq_eq] at h4
  rcases h4 with h4 | h4
  · omega
  · have h5 := h4.1.2
    omega

theorem jisNarrow_fine {x : Charset} (h : jisNarrow x = true) : x.Fine ∧ ∀ r ∈ x.reads.pairs, r.1 < 0x100 ∧ r.1 ≠ 0x1B := by
  unfold jisNarrow at h
  rw [Bool.and_eq_true] at h
  refine ⟨Charset.fine_iff h.1, ?_⟩
  intro r hr
  obtain ⟨q, hq, hr⟩ := List.mem_flatMap.1 hr
  have h1 := List.all_eq_true.1 h.2 q hq
  simp only [Bool.or_eq_true, Bool.and_eq_true, Nat.ble_eq] at h1
  have h2 := Chart.run_lt hr
  omega

theorem jis_codecs {s : Static π} {e : Lens π Jis.Priv} {C : Jis.Codecs} {T : JisTables} (hT : JisTables.fine T = true) (h : ReadsJis s e C T) :
    JisCodecs C T := by
  unfold JisTables.fine at hT
  simp only [Bool.and_eq_true] at hT
  obtain ⟨⟨h1, h2⟩, h3⟩ := hT
  intro m c hc
  cases m <;> simp only [Jis.Codecs.of, Option.some.injEq, reduceCtorEq] at hc
  · subst hc; exact ⟨h.jis0201, fromRules_prefixFree (jisNarrow_fine h1).1, fromRules_data⟩
  · subst hc; exact ⟨h.jis0208, fromRules_prefixFree (jisWide_fine h2).1, fromRules_data⟩
  · subst hc; exact ⟨h.jis0212, fromRules_prefixFree (jisWide_fine h3).1, fromRules_data⟩

theorem lookup_in {R : Rules Nat (List Datum)} {p : List Nat} {b : List Datum} (h : lookup R p = some b) : (p, b) ∈ R := by
  obtain ⟨r, hr, e1, e2⟩ := single_lookup_none.lookup_some_mem h
  rw [← e1, ← e2]
  exact hr

theorem jis_plain {C : Jis.Codecs} {T : JisTables} (hC : JisCodecs C T) : (Jis.machine C).Plain (JisInv C) := by
  intro t d ht _
  show Tidy (JisInv C) (Jis.step C t d)
  have cont : ∀ t' : Jis.Priv, JisInv C t' → Tidy (JisInv C) (t', [], some .cont) := fun _ h => ⟨h, rfl⟩
  have next : ∀ t' : Jis.Priv, JisInv C t' → Tidy (JisInv C) (t', [], some .nextphase) := fun _ h => ⟨h, by simp⟩
  have hasc : JisInv C { t with esc := .none, mode := .ascii } := fun c hc => by simp [Jis.Codecs.of] at hc
  unfold Jis.step
  cases he : t.esc <;> simp only
  · refine .ite (fun _ => cont _ ht) fun _ => ?_
    cases hm : C.of t.mode with
    | none => exact .dead ht
    | some c =>
      simp only
      obtain ⟨hrep, hpf, hdat⟩ := hC _ _ hm
      obtain ⟨u, hu⟩ := ht _ hm
      have hsn := walk_snoc hu d
      by_cases hz : c.next t.cstate d = 0
      · rw [hz, hrep.root]
        exact ⟨jisInv_root rfl, rfl⟩
      · rw [if_neg hz] at hsn
        have hst := hrep.status _ _ (by simp) hsn
        have hinv : JisInv C { t with cstate := c.next t.cstate d } := by
          intro c' hc'
          simp only [hm, Option.some.injEq] at hc'
          subst hc'
          exact ⟨_, hsn⟩
        cases hl : lookup (jisRules T t.mode) (u ++ [d]) with
        | none =>
          have : c.status (c.next t.cstate d) = .cont := by rw [hst, nodeStatus, hl]
          rw [this]
          exact ⟨hinv, rfl⟩
        | some b =>
          have : c.status (c.next t.cstate d) = .match_ := by
            rw [hst, nodeStatus, hl]
            simp [hpf _ _ hl]
          rw [this]
          refine ⟨jisInv_root rfl, ?_⟩
          simp only [hrep.data _ _ _ hsn hl]
          exact (hdat _ (lookup_in hl)).2
  · exact .ite (fun _ => cont _ ht) fun _ => .ite (fun _ => cont _ ht) fun _ => .dead ht
  · exact .ite (fun _ => next _ (jisInv_root rfl)) fun _ => .ite (fun _ => next _ (jisInv_root rfl)) fun _ => .dead ht
  · exact .ite (fun _ => cont _ ht) fun _ => .ite (fun _ => next _ hasc) fun _ => .ite (fun _ => next _ (jisInv_root rfl)) fun _ =>
      .ite (fun _ => next _ (jisInv_root rfl)) fun _ => .dead ht
  · exact .ite (fun _ => next _ (jisInv_root rfl)) fun _ => .dead ht

/-- Between characters, in the set `m`. -/
def JisIdle (m : JisSet) (t : Jis.Priv) : Prop := t.mode = jisMode m ∧ t.esc = .none ∧ (m ≠ .ascii → t.cstate = 0)

theorem jisIdle_inv {C : Jis.Codecs} {m : JisSet} {t : Jis.Priv} (h : JisIdle m t) : JisInv C t := by
  obtain ⟨h1, _, h3⟩ := h
  cases m
  · intro c hc; rw [h1] at hc; simp [jisMode, Jis.Codecs.of] at hc
  all_goals exact jisInv_root (h3 (by simp))

/-- The codecs of the phase. -/
def jisReaders (e : Lens π Jis.Priv) (C : Jis.Codecs) (j : Nat) : Reader π :=
  if j = 0 then ((Jis.machine C).on e).reader else Reader.table Ascii.fromRules

theorem jis_real {s : Static π} {e : Lens π Jis.Priv} {C : Jis.Codecs} {T : JisTables} (hT : JisTables.fine T = true) (h : ReadsJis s e C T)
    {p : Nat → π} (hp : JisInv C (e.get (p 0))) : Realises s (fun q => q = p) (decoderProc (jisReaders e C) 1 p) := by
  have hR : Readers s (jisReaders e C) (fun j x => j = 0 → JisInv C (e.get x)) (fun j => if j = 0 then AtAny else AtTable (s.codecs 1)) := by
    refine ⟨h.isFrom, ?_⟩
    intro j hj
    rw [h.two] at hj
    obtain rfl | rfl : j = 0 ∨ j = 1 := by omega
    · obtain ⟨fl, hc⟩ := h.codec
      have := machine_member ((jis_plain (jis_codecs hT h)).on e) hc
      simp only [true_implies]
      exact this
    · exact table_reader h.ascii fromAscii_prefixFree (fun p b hl => (ascii_data _ (lookup_in hl)).2) _
  have := reader_realises hR (p := p) (by rintro j rfl; exact hp)
  rw [h.two] at this
  exact this

/-! ### Reading one piece -/

theorem jis_step {e : Lens π Jis.Priv} {C : Jis.Codecs} (x : π) (u : List Nat) (b : Nat) :
    (((Jis.machine C).on e).reader).step x u b = (match (generalizing := false) (Jis.step C (e.get x) b).2.2 with
      | some .nextphase => .done (e.put (Jis.step C (e.get x) b).1 x) (Jis.step C (e.get x) b).2.1
      | some .deadend => .dead (e.put (Jis.step C (e.get x) b).1 x)
      | _ => .more (e.put (Jis.step C (e.get x) b).1 x)) := rfl

theorem jis_more {e : Lens π Jis.Priv} {C : Jis.Codecs} {x : π} {b : Nat} {t : Jis.Priv} (h : Jis.step C (e.get x) b = (t, [], some .cont))
    (u bs : List Nat) : (((Jis.machine C).on e).reader).read x u (b :: bs) = (((Jis.machine C).on e).reader).read (e.put t x) (u ++ [b]) bs := by
  rw [Reader.read, jis_step, h]

theorem jis_done {e : Lens π Jis.Priv} {C : Jis.Codecs} {x : π} {b : Nat} {t : Jis.Priv} {out : List Datum}
    (h : Jis.step C (e.get x) b = (t, out, some .nextphase)) (u bs : List Nat) :
    (((Jis.machine C).on e).reader).read x u (b :: bs) = .done bs (e.put t x) out := by
  rw [Reader.read, jis_step, h]

theorem jis_dead {e : Lens π Jis.Priv} {C : Jis.Codecs} {x : π} {b : Nat} {t : Jis.Priv}
    (h : Jis.step C (e.get x) b = (t, [], some .deadend)) (u bs : List Nat) :
    (((Jis.machine C).on e).reader).read x u (b :: bs) = .dead (e.put t x) := by
  rw [Reader.read, jis_step, h]

/-- An escape sequence. -/
theorem jis_switch {e : Lens π Jis.Priv} (C : Jis.Codecs) {m m' : JisSet} {esc : List Nat} (he : esc ∈ m'.escapes) {x : π} (hx : JisIdle m (e.get x))
    (rest : List Nat) : ∃ x', JisIdle m' (e.get x') ∧ (((Jis.machine C).on e).reader).read x [] (esc ++ rest) = .done rest x' [] := by
  obtain ⟨_, h2, _⟩ := hx
  have h0 : Jis.step C (e.get x) 0x1B = ({ e.get x with esc := .esc }, [], some .cont) := by simp [Jis.step, h2]
  have h24 : ∀ t : Jis.Priv, t.esc = .esc → Jis.step C t 0x24 = ({ t with esc := .dollar }, [], some .cont) := by
    intro t ht; simp [Jis.step, ht]
  have h28 : ∀ t : Jis.Priv, t.esc = .esc → Jis.step C t 0x28 = ({ t with esc := .paren }, [], some .cont) := by
    intro t ht; simp [Jis.step, ht]
  cases m' <;> simp only [JisSet.escapes, List.mem_cons, List.not_mem_nil, or_false] at he
  · subst he
    simp only [List.cons_append, List.nil_append]
    rw [jis_more h0, jis_more (h28 _ (by rw [e.get_put])), jis_done (t := ⟨.ascii, .none, (e.get x).cstate⟩) (out := []) (by simp [Jis.step, e.get_put])]
    exact ⟨_, ⟨by rw [e.get_put]; rfl, by rw [e.get_put], fun h => absurd rfl h⟩, rfl⟩
  · rcases he with rfl | rfl <;> simp only [List.cons_append, List.nil_append]
    all_goals
      rw [jis_more h0, jis_more (h28 _ (by rw [e.get_put])), jis_done (t := ⟨.jis0201, .none, 0⟩) (out := []) (by simp [Jis.step, e.get_put])]
      exact ⟨_, ⟨by rw [e.get_put]; rfl, by rw [e.get_put], fun _ => by rw [e.get_put]⟩, rfl⟩
  · rcases he with rfl | rfl <;> simp only [List.cons_append, List.nil_append]
    all_goals
      rw [jis_more h0, jis_more (h24 _ (by rw [e.get_put])), jis_done (t := ⟨.jis0208, .none, 0⟩) (out := []) (by simp [Jis.step, e.get_put])]
      exact ⟨_, ⟨by rw [e.get_put]; rfl, by rw [e.get_put], fun _ => by rw [e.get_put]⟩, rfl⟩
  · subst he
    simp only [List.cons_append, List.nil_append]
    rw [jis_more h0, jis_more (h28 _ (by rw [e.get_put])), jis_more (t := { e.get x with esc := .parenDollar }) (by simp [Jis.step, e.get_put]),
      jis_done (t := ⟨.jis0212, .none, 0⟩) (out := []) (by simp [Jis.step, e.get_put])]
    exact ⟨_, ⟨by rw [e.get_put]; rfl, by rw [e.get_put], fun _ => by rw [e.get_put]⟩, rfl⟩

/-- The steps in the table of a set. -/
theorem jis_table_step {C : Jis.Codecs} {T : JisTables} (hC : JisCodecs C T) {t : Jis.Priv} {c : Codec Unit} (hc : C.of t.mode = some c)
    (he : t.esc = .none) {u : List Nat} (hu : walk c 0 u = some t.cstate) {b : Nat} (hb : b ≠ 0x1B) :
    (∀ out, lookup (jisRules T t.mode) (u ++ [b]) = some out → Jis.step C t b = ({ t with cstate := 0 }, out, some .nextphase)) ∧
    (lookup (jisRules T t.mode) (u ++ [b]) = none → (∃ r ∈ jisRules T t.mode, u ++ [b] <+: r.1) →
      ∃ o, walk c 0 (u ++ [b]) = some o ∧ Jis.step C t b = ({ t with cstate := o }, [], some .cont)) ∧
    ((¬ ∃ r ∈ jisRules T t.mode, u ++ [b] <+: r.1) → Jis.step C t b = ({ t with cstate := 0 }, [], some .deadend)) := by
  obtain ⟨hrep, hpf, _⟩ := hC _ _ hc
  have hsn := walk_snoc hu b
  have hpath := hrep.path (u ++ [b]) (by simp)
  have hstep : Jis.step C t b = (if c.status (c.next t.cstate b) = .match_ then ({ t with cstate := 0 }, c.data (c.next t.cstate b), some .nextphase)
      else ({ t with cstate := c.next t.cstate b }, [], some (c.status (c.next t.cstate b)))) := by
    simp only [Jis.step, he, if_neg hb, hc]
  have some_of : (∃ r ∈ jisRules T t.mode, u ++ [b] <+: r.1) → c.next t.cstate b ≠ 0 ∧ walk c 0 (u ++ [b]) = some (c.next t.cstate b) := by
    intro h
    have := hpath.2 h
    by_cases hz : c.next t.cstate b = 0
    · rw [hsn, if_pos hz] at this; simp at this
    · exact ⟨hz, by rw [hsn, if_neg hz]⟩
  refine ⟨?_, ?_, ?_⟩
  · intro out hl
    obtain ⟨h1, h2⟩ := some_of ⟨_, lookup_in hl, List.prefix_refl _⟩
    have hst := hrep.status _ _ (by simp) h2
    rw [hstep, if_pos (by rw [hst, nodeStatus, hl]; simp [hpf _ _ hl]), hrep.data _ _ _ h2 hl]
  · intro hl h
    obtain ⟨h1, h2⟩ := some_of h
    have hst := hrep.status _ _ (by simp) h2
    have : c.status (c.next t.cstate b) = .cont := by rw [hst, nodeStatus, hl]
    refine ⟨_, h2, ?_⟩
    rw [hstep, this]
    simp
  · intro h
    have : c.next t.cstate b = 0 := by
      by_cases hz : c.next t.cstate b = 0
      · exact hz
      · rw [if_neg hz] at hsn
        exact absurd (hpath.1 (by rw [hsn]; rfl)) h
    rw [hstep, this, hrep.root]
    simp

/-- A code of the table. -/
theorem jis_code {e : Lens π Jis.Priv} {C : Jis.Codecs} {T : JisTables} (hC : JisCodecs C T) {m : JisSet} {x : π} (hx : JisIdle m (e.get x))
    {c : Codec Unit} (hc : C.of (jisMode m) = some c) {u : List Nat} {b : Nat} {out : List Datum}
    (hl : lookup (jisRules T (jisMode m)) (u ++ [b]) = some out) (hesc : ∀ a ∈ u ++ [b], a ≠ 0x1B) (hfree : ∀ v, v ≠ [] → v <+: u → lookup (jisRules T (jisMode m)) v = none)
    (rest : List Nat) : ∃ x', JisIdle m (e.get x') ∧ (((Jis.machine C).on e).reader).read x [] (u ++ [b] ++ rest) = .done rest x' out := by
  obtain ⟨h1, h2, h3⟩ := hx
  have hm : m ≠ .ascii := by rintro rfl; simp [jisMode, Jis.Codecs.of] at hc
  have key : ∀ (v w : List Nat) (y : π), w ++ v = u → (e.get y).mode = jisMode m → (e.get y).esc = .none → walk c 0 w = some (e.get y).cstate →
      ∃ x', JisIdle m (e.get x') ∧ (((Jis.machine C).on e).reader).read y w (v ++ [b] ++ rest) = .done rest x' out := by
    intro v
    induction v with
    | nil =>
      intro w y hw k1 k2 k3
      simp only [List.append_nil] at hw
      subst hw
      have := (jis_table_step hC (t := e.get y) (by rw [k1]; exact hc) k2 k3 (hesc b (by simp))).1 out (by rw [k1]; exact hl)
      rw [List.nil_append, List.singleton_append, jis_done this]
      exact ⟨_, ⟨by rw [e.get_put]; exact k1, by rw [e.get_put]; exact k2, fun _ => by rw [e.get_put]⟩, rfl⟩
    | cons a v ih =>
      intro w y hw k1 k2 k3
      have hpre : w ++ [a] <+: u := by rw [← hw]; exact ⟨v, by simp⟩
      obtain ⟨o, g1, g2⟩ := (jis_table_step hC (t := e.get y) (by rw [k1]; exact hc) k2 k3 (hesc a (by rw [← hw]; simp))).2.1
        (by rw [k1]; exact hfree _ (by simp) hpre) ⟨_, by rw [k1]; exact lookup_in hl, hpre.trans (List.prefix_append _ _)⟩
      rw [List.cons_append, List.cons_append, jis_more g2]
      exact ih (w ++ [a]) _ (by rw [← hw]; simp) (by rw [e.get_put]; exact k1) (by rw [e.get_put]; exact k2) (by rw [e.get_put]; exact g1)
  exact key u [] x rfl h1 h2 (by rw [h3 hm]; rfl)

/-- A byte that begins no code. -/
theorem jis_skip {e : Lens π Jis.Priv} {C : Jis.Codecs} {T : JisTables} (hC : JisCodecs C T) {m : JisSet} {x : π} (hx : JisIdle m (e.get x)) {b : Nat}
    (hb : b ≠ 0x1B) (hno : ∀ r ∈ jisRules T (jisMode m), ¬ [b] <+: r.1) (rest : List Nat) :
    ∃ x', JisIdle m (e.get x') ∧ (((Jis.machine C).on e).reader).read x [] (b :: rest) = .dead x' := by
  obtain ⟨h1, h2, h3⟩ := hx
  cases hc : C.of (jisMode m) with
  | none =>
    have : Jis.step C (e.get x) b = (e.get x, [], some .deadend) := by simp only [Jis.step, h2, if_neg hb, h1, hc]
    rw [jis_dead this]
    exact ⟨_, ⟨by rw [e.get_put]; exact h1, by rw [e.get_put]; exact h2, by rw [e.get_put]; exact h3⟩, rfl⟩
  | some c =>
    have hm : m ≠ .ascii := by rintro rfl; simp [jisMode, Jis.Codecs.of] at hc
    have := (jis_table_step hC (t := e.get x) (by rw [h1]; exact hc) h2 (u := []) (by rw [h3 hm]; rfl) hb).2.2
      (by rw [h1]; rintro ⟨r, hr, h⟩; exact hno r hr h)
    rw [jis_dead this]
    exact ⟨_, ⟨by rw [e.get_put]; exact h1, by rw [e.get_put]; exact h2, fun _ => by rw [e.get_put]⟩, rfl⟩

/-! ### Texts -/

/-- When `_JIS` gives up, ASCII reads the first byte. -/
theorem jis_fallback {e : Lens π Jis.Priv} {C : Jis.Codecs} {p : Nat → π} {x' : π} {c : Nat} {rest : List Nat} (h1 : 1 ≤ c) (h2 : c < 0x80)
    (k2 : (((Jis.machine C).on e).reader).read (p 0) [] (c :: rest) = .dead x') :
    resume (jisReaders e C) 1 0 p [] (c :: rest) = (setPriv (setPriv p 0 x') 1 (p 1), some (rest, [uniDatum c])) := by
  have hl : lookup Ascii.fromRules ([] ++ [c]) = some [uniDatum c] := by
    rw [uniDatum, be1 (by omega)]
    exact (fromAscii_lookup _ _).2 ⟨c, h1, h2, rfl, rfl⟩
  rw [resume_eq]
  simp only [jisReaders, if_true, k2, retry, List.nil_append]
  rw [resume_eq]
  have hr1 : (jisReaders e C 1 : Reader π) = Reader.table Ascii.fromRules := rfl
  have hr : ∀ y : π, (Reader.table Ascii.fromRules : Reader π).read y [] (c :: rest) = .done rest y [uniDatum c] := by
    intro y; simp only [Reader.read, Reader.table, hl]
  simp only [Nat.zero_add, hr1, hr]
  simp [setPriv]

/-- A byte `_JIS` cannot read, as ASCII. -/
theorem jis_ascii {e : Lens π Jis.Priv} {C : Jis.Codecs} {T : JisTables} (hC : JisCodecs C T) {m : JisSet} {p : Nat → π} (hp : JisIdle m (e.get (p 0)))
    {c : Nat} (h1 : 1 ≤ c) (h2 : c < 0x80) (hb : c ≠ 0x1B) (hno : ∀ r ∈ jisRules T (jisMode m), ¬ [c] <+: r.1) (rest : List Nat) :
    ∃ p', JisIdle m (e.get (p' 0)) ∧ resume (jisReaders e C) 1 0 p [] (beBytes c ++ rest) = (p', some (rest, [uniDatum c])) := by
  obtain ⟨x', k1, k2⟩ := jis_skip (e := e) hC hp hb hno rest
  refine ⟨setPriv (setPriv p 0 x') 1 (p 1), by simp [setPriv]; exact k1, ?_⟩
  rw [be1 (by omega), List.singleton_append]
  exact jis_fallback h1 h2 k2

/-- A code of the table of the set. -/
theorem jis_found {e : Lens π Jis.Priv} {C : Jis.Codecs} {T : JisTables} (hC : JisCodecs C T) {m : JisSet} {p : Nat → π} (hp : JisIdle m (e.get (p 0)))
    {cd : Codec Unit} (hcd : C.of (jisMode m) = some cd) {x : Charset} (hx : x.Fine) (hr : jisRules T (jisMode m) = x.fromRules) {c cp : Nat}
    (hf : x.reads.find c = some cp) (hb : ∀ b ∈ beBytes c, b ≠ 0x1B) (rest : List Nat) :
    ∃ p', JisIdle m (e.get (p' 0)) ∧ resume (jisReaders e C) 1 0 p [] (beBytes c ++ rest) = (p', some (rest, [uniDatum cp])) := by
  have hm := Chart.find_mem hf
  obtain ⟨k1, k2, _⟩ := hx.codes _ hm
  have hl := fromRules_lookup hx k2
  rw [hf, ← hr] at hl
  simp only [Option.map_some] at hl
  have fin : ∀ x', JisIdle m (e.get x') → (((Jis.machine C).on e).reader).read (p 0) [] (beBytes c ++ rest) = .done rest x' [uniDatum cp] →
      ∃ p', JisIdle m (e.get (p' 0)) ∧ resume (jisReaders e C) 1 0 p [] (beBytes c ++ rest) = (p', some (rest, [uniDatum cp])) := by
    intro x' g1 g2
    refine ⟨setPriv p 0 x', by simp [setPriv]; exact g1, ?_⟩
    rw [resume_eq]
    simp only [jisReaders, if_true, g2]
  rcases (code_bytes k2).2 with ⟨_, m2⟩ | ⟨m0, m2⟩
  · simp only at m2
    rw [m2] at hl hb
    obtain ⟨x', g1, g2⟩ := jis_code (u := []) (b := c) (e := e) hC hp hcd hl hb (by
      intro v hv hp
      exact absurd (List.prefix_nil.1 hp) hv) rest
    exact fin x' g1 (by rw [m2]; exact g2)
  · simp only at m2 m0
    rw [m2] at hl hb
    obtain ⟨x', g1, g2⟩ := jis_code (u := [c / 0x100]) (b := c % 0x100) (e := e) hC hp hcd hl hb (by
      intro v hv hp
      cases hlv : lookup (jisRules T (jisMode m)) v with
      | none => rfl
      | some b =>
        exfalso
        have hin := lookup_in hlv
        rw [hr] at hin
        obtain ⟨a, ha, e1⟩ := List.mem_map.1 hin
        simp only [Prod.mk.injEq] at e1
        have ev : v = [c / 0x100] := by
          rcases v with _ | ⟨a, _ | ⟨a', v⟩⟩
          · exact absurd rfl hv
          · obtain ⟨t, ht⟩ := hp
            simp at ht
            rw [ht.1]
          · obtain ⟨t, ht⟩ := hp
            simp at ht
        rcases (code_bytes (hx.codes a ha).2.1).2 with ⟨n1, n2⟩ | ⟨n1, n2⟩
        · rw [e1.1, ev] at n2
          simp only [List.cons.injEq, and_true] at n2
          exact hx.free _ hm a ha m0 n1 n2.symm
        · rw [e1.1, ev] at n2
          simp at n2) rest
    exact fin x' g1 (by rw [m2]; exact g2)

theorem wide_head {x : Charset} (h : jisWide x = true) {c : Nat} (hc : c ≤ 0x20 ∨ c = 0x7F) {r : List Nat × List Datum} (hr : r ∈ x.fromRules) :
    ¬ [c] <+: r.1 := by
  obtain ⟨a, ha, rfl⟩ := List.mem_map.1 hr
  obtain ⟨k1, k2, _⟩ := (jisWide_fine h).2 a ha
  rintro ⟨t, ht⟩
  simp only at ht
  rcases (code_bytes ((jisWide_fine h).1.codes a ha).2.1).2 with ⟨g1, g2⟩ | ⟨g1, g2⟩ <;> rw [g2] at ht <;> simp at ht <;> omega

theorem narrow_head {x : Charset} (h : jisNarrow x = true) {c : Nat} (hc : x.reads.find c = none) {r : List Nat × List Datum} (hr : r ∈ x.fromRules) :
    ¬ [c] <+: r.1 := by
  obtain ⟨a, ha, rfl⟩ := List.mem_map.1 hr
  obtain ⟨k1, k2⟩ := (jisNarrow_fine h).2 a ha
  rintro ⟨t, ht⟩
  simp only at ht
  rw [be1 k1] at ht
  simp at ht
  have := Chart.mem_find (jisNarrow_fine h).1.reads (n := a.1) (v := a.2) ha
  rw [← ht.1, hc] at this
  simp at this

/-- One code. -/
theorem jis_char {e : Lens π Jis.Priv} {C : Jis.Codecs} {T : JisTables} (hT : JisTables.fine T = true) (hC : JisCodecs C T) {m : JisSet} {p : Nat → π}
    (hp : JisIdle m (e.get (p 0))) {c cp : Nat} (hc : T.char m c = some cp) (rest : List Nat) :
    ∃ p', JisIdle m (e.get (p' 0)) ∧ resume (jisReaders e C) 1 0 p [] (beBytes c ++ rest) = (p', some (rest, [uniDatum cp])) := by
  unfold JisTables.fine at hT
  simp only [Bool.and_eq_true] at hT
  obtain ⟨⟨t1, t2⟩, t3⟩ := hT
  have asc : ∀ {m : JisSet} {p : Nat → π}, JisIdle m (e.get (p 0)) → (if 1 ≤ c ∧ c < 0x80 ∧ c ≠ 0x1B then some c else none) = some cp →
      (∀ r ∈ jisRules T (jisMode m), ¬ [c] <+: r.1) →
      ∃ p', JisIdle m (e.get (p' 0)) ∧ resume (jisReaders e C) 1 0 p [] (beBytes c ++ rest) = (p', some (rest, [uniDatum cp])) := by
    intro m p hp h hno
    split at h
    · rename_i hh
      simp only [Option.some.injEq] at h
      subst h
      exact jis_ascii hC hp hh.1 hh.2.1 hh.2.2 hno rest
    · simp at h
  have wideBytes : ∀ {x : Charset}, jisWide x = true → ∀ {c cp}, x.reads.find c = some cp → ∀ b ∈ beBytes c, b ≠ 0x1B := by
    intro x hx c cp hf b hb
    obtain ⟨k1, k2, k3⟩ := (jisWide_fine hx).2 _ (Chart.find_mem hf)
    simp only at k1 k2 k3
    rw [be2 (by omega) (by omega)] at hb
    simp at hb
    omega
  cases m
  · exact asc hp hc (by intro r hr; simp [jisRules, jisMode] at hr)
  · simp only [JisTables.char] at hc
    cases hf : T.x0201.reads.find c with
    | some v =>
      rw [hf] at hc
      simp only [Option.some.injEq] at hc
      subst hc
      obtain ⟨k1, k2⟩ := (jisNarrow_fine t1).2 _ (Chart.find_mem hf)
      simp only at k1 k2
      exact jis_found hC hp (cd := C.jis0201) rfl (jisNarrow_fine t1).1 rfl hf (by rw [be1 k1]; simpa using k2) rest
    | none =>
      rw [hf] at hc
      exact asc hp hc (fun r hr => narrow_head t1 hf hr)
  · simp only [JisTables.char] at hc
    cases hf : T.x0208.reads.find c with
    | some v =>
      rw [hf] at hc
      simp only [Option.some.injEq] at hc
      subst hc
      exact jis_found hC hp (cd := C.jis0208) rfl (jisWide_fine t2).1 rfl hf (wideBytes t2 hf) rest
    | none =>
      simp only [hf] at hc
      split at hc
      · rename_i hh
        exact asc hp hc (fun r hr => wide_head t2 hh hr)
      · simp at hc
  · simp only [JisTables.char] at hc
    cases hf : T.x0212.reads.find c with
    | some v =>
      rw [hf] at hc
      simp only [Option.some.injEq] at hc
      subst hc
      exact jis_found hC hp (cd := C.jis0212) rfl (jisWide_fine t3).1 rfl hf (wideBytes t3 hf) rest
    | none =>
      simp only [hf] at hc
      split at hc
      · rename_i hh
        exact asc hp hc (fun r hr => wide_head t3 hh hr)
      · simp at hc

theorem jis_bytes {T : JisTables} (hT : JisTables.fine T = true) : ∀ {is : List JisItem} {m : JisSet} {cps : List Nat}, T.chars m is = some cps →
    IsBytes (is.flatMap JisItem.bytes) ∧ ∀ i ∈ is, i.bytes ≠ []
  | [], _, _, _ => ⟨by intro b hb; simp at hb, by simp⟩
  | .switch m' e :: is, m, cps, h => by
    simp only [JisTables.chars] at h
    split at h
    · rename_i he
      obtain ⟨i1, i2⟩ := jis_bytes hT h
      have : IsBytes e ∧ e ≠ [] := by
        cases m' <;> simp only [JisSet.escapes, List.mem_cons, List.not_mem_nil, or_false] at he
        · subst he; exact ⟨by decide, by simp⟩
        · rcases he with rfl | rfl <;> exact ⟨by decide, by simp⟩
        · rcases he with rfl | rfl <;> exact ⟨by decide, by simp⟩
        · subst he; exact ⟨by decide, by simp⟩
      refine ⟨?_, ?_⟩
      · rw [List.flatMap_cons]
        exact bytes_append this.1 i1
      · intro i hi
        rcases List.mem_cons.1 hi with rfl | hi
        · exact this.2
        · exact i2 i hi
    · simp at h
  | .code c :: is, m, cps, h => by
    simp only [JisTables.chars] at h
    cases hc : T.char m c with
    | none => rw [hc] at h; simp at h
    | some cp =>
      rw [hc] at h
      simp only [Option.map_eq_some_iff] at h
      obtain ⟨cps', h1, _⟩ := h
      obtain ⟨i1, i2⟩ := jis_bytes hT h1
      refine ⟨?_, ?_⟩
      · rw [List.flatMap_cons]
        exact bytes_append (Verif.Engine.beBytes_bytes c) i1
      · intro i hi
        rcases List.mem_cons.1 hi with rfl | hi
        · show beBytes c ≠ []
          rw [beBytes]
          split <;> simp
        · exact i2 i hi

theorem jis_decode {e : Lens π Jis.Priv} {C : Jis.Codecs} {T : JisTables} (hT : JisTables.fine T = true) (hC : JisCodecs C T) :
    ∀ {is : List JisItem} {m : JisSet} {cps : List Nat} {p : Nat → π}, T.chars m is = some cps → JisIdle m (e.get (p 0)) →
      (decode (jisReaders e C) 1 p (is.flatMap JisItem.bytes)).out = textData cps ∧ (decode (jisReaders e C) 1 p (is.flatMap JisItem.bytes)).errors = 0
  | [], m, cps, p, h, _ => by
    simp only [JisTables.chars, Option.some.injEq] at h
    subst h
    rw [List.flatMap_nil, decode_nil]
    exact ⟨rfl, rfl⟩
  | .switch m' esc :: is, m, cps, p, h, hp => by
    have hne := (jis_bytes hT h).2 (.switch m' esc) (by simp)
    simp only [JisTables.chars] at h
    split at h
    · rename_i he
      obtain ⟨x', k1, k2⟩ := jis_switch (e := e) C he hp (is.flatMap JisItem.bytes)
      have hr : resume (jisReaders e C) 1 0 p [] (esc ++ is.flatMap JisItem.bytes) = (setPriv p 0 x', some (is.flatMap JisItem.bytes, [])) := by
        rw [resume_eq]
        simp only [jisReaders, if_true, k2]
      have hne' : esc ≠ [] := hne
      rw [List.flatMap_cons]
      show (decode (jisReaders e C) 1 p (esc ++ _)).out = _ ∧ _
      rw [JisItem.bytes, (decode_some (by simp [hne']) hr).1]
      have := jis_decode hT hC (p := setPriv p 0 x') h (by simp [setPriv]; exact k1)
      simpa using this
    · simp at h
  | .code c :: is, m, cps, p, h, hp => by
    have hne := (jis_bytes hT h).2 (.code c) (by simp)
    simp only [JisTables.chars] at h
    cases hc : T.char m c with
    | none => rw [hc] at h; simp at h
    | some cp =>
      rw [hc] at h
      simp only [Option.map_eq_some_iff] at h
      obtain ⟨cps', h1, rfl⟩ := h
      obtain ⟨p', k1, k2⟩ := jis_char (e := e) hT hC hp hc (is.flatMap JisItem.bytes)
      have hne' : beBytes c ≠ [] := hne
      rw [List.flatMap_cons, JisItem.bytes, (decode_some (by simp [hne']) k2).1]
      obtain ⟨a, b⟩ := jis_decode hT hC h1 k1
      simp only [a, b, and_true]
      rfl

/-- C81.  `_JIS,ASCII` reads a well-formed text as its characters. -/
theorem C81_readsAs {s : Static π} {e : Lens π Jis.Priv} {C : Jis.Codecs} {T : JisTables} (hT : JisTables.fine T = true) (h : ReadsJis s e C T)
    {p : Nat → π} {m : JisSet} (hp : JisIdle m (e.get (p 0))) {is : List JisItem} {cps : List Nat} (hc : T.chars m is = some cps) :
    ReadsAs s p (is.flatMap JisItem.bytes) cps := by
  refine ⟨(jis_bytes hT hc).1, _, jis_real hT h (jisIdle_inv hp), ?_⟩
  intro ds hds
  have := jis_decode hT (jis_codecs hT h) hc hp
  simp only [decoderProc, hds]
  exact ⟨this.1, this.2, trivial, trivial⟩

theorem jis_scalar {T : JisTables} (hT : JisTables.fine T = true) : ∀ {is : List JisItem} {m : JisSet} {cps : List Nat}, T.chars m is = some cps →
    ∀ cp ∈ cps, Scalar cp
  | [], _, cps, h => by
    simp only [JisTables.chars, Option.some.injEq] at h
    subst h
    simp
  | .switch m' e :: is, m, cps, h => by
    simp only [JisTables.chars] at h
    split at h
    · exact jis_scalar hT h
    · simp at h
  | .code c :: is, m, cps, h => by
    simp only [JisTables.chars] at h
    cases hc : T.char m c with
    | none => rw [hc] at h; simp at h
    | some cp =>
      rw [hc] at h
      simp only [Option.map_eq_some_iff] at h
      obtain ⟨cps', h1, rfl⟩ := h
      intro cp' hcp
      rcases List.mem_cons.1 hcp with rfl | hcp
      · unfold JisTables.fine at hT
        simp only [Bool.and_eq_true] at hT
        obtain ⟨⟨t1, t2⟩, t3⟩ := hT
        have asc : (if 1 ≤ c ∧ c < 0x80 ∧ c ≠ 0x1B then some c else none) = some cp' → Scalar cp' := by
          intro h
          split at h
          · simp only [Option.some.injEq] at h
            subst h
            unfold Scalar Surrogate
            omega
          · simp at h
        have fnd : ∀ {x : Charset}, x.Fine → x.reads.find c = some cp' → Scalar cp' := fun hx h => (hx.codes _ (Chart.find_mem h)).2.2
        cases m <;> simp only [JisTables.char] at hc
        · exact asc hc
        · cases hf : T.x0201.reads.find c with
          | some v =>
            rw [hf] at hc
            simp only [Option.some.injEq] at hc
            subst hc
            exact fnd (jisNarrow_fine t1).1 hf
          | none => rw [hf] at hc; exact asc hc
        · cases hf : T.x0208.reads.find c with
          | some v =>
            rw [hf] at hc
            simp only [Option.some.injEq] at hc
            subst hc
            exact fnd (jisWide_fine t2).1 hf
          | none =>
            simp only [hf] at hc
            split at hc
            · exact asc hc
            · simp at hc
        · cases hf : T.x0212.reads.find c with
          | some v =>
            rw [hf] at hc
            simp only [Option.some.injEq] at hc
            subst hc
            exact fnd (jisWide_fine t3).1 hf
          | none =>
            simp only [hf] at hc
            split at hc
            · exact asc hc
            · simp at hc
      · exact jis_scalar hT h1 cp' hcp

/-- C81.  `JIS:b`, a new instance: a well-formed text that starts in ASCII, given in any number of chunks cut anywhere (also within codes and escape
sequences), comes out in encoding `b` with no errors in the input; the characters `b` has not are counted. -/
theorem C81_reads {st : Nat → Static π} {ip : Nat → Nat → π → π} {ins : Ins π} {b : Target} {e : Lens π Jis.Priv} {C : Jis.Codecs} {T : JisTables}
    (hT : JisTables.fine T = true) (hn : ins.phasen = 2) (ha : ReadsJis (st 1) e C T) (hp : e.get (initPriv st ip ins 1 0) = .fresh) (hb : b.Is (st 2))
    (is : List JisItem) (cps : List Nat) (hc : T.chars .ascii is = some cps)
    (as : List Arg) (l : Arg) (h1 : ∀ y ∈ as, y.flush = false) (h2 : l.flush = true) (h3 : ∀ y ∈ as ++ [l], y.mode ≠ .null)
    (h4 : ((as ++ [l]).filterMap (fun y => y.input)).flatten = is.flatMap JisItem.bytes) :
    ∃ ds ins', Session st (ins.init st ip) (as ++ [l]) ds ins' ∧
      (ds.map (fun d => d.bytes)).flatten ++ ins'.pending.flatten = (cps.filter b.takes).flatMap b.enc ∧
      ins'.ierr = ins.ierr ∧ ins'.oerr = ins.oerr + (cps.filter fun cp => !b.takes cp).length := by
  have hi : JisIdle .ascii (e.get (initPriv st ip ins 1 0)) := by rw [hp]; exact ⟨rfl, rfl, fun h => absurd rfl h⟩
  obtain ⟨ds, ins', k1, k2, k3, k4⟩ := C63_reads (mid := []) hn _ _ (C81_readsAs hT ha hi hc) hb (fun k h => absurd h (by simp))
    (by simp) (jis_scalar hT hc) trivial rfl as l h1 h2 h3 h4
  exact ⟨ds, ins', k1, k2, k3, k4⟩

/-! ### What goes wrong -/

/-- C81, not so: after ESC ( I the bytes 21 .. 5F stand for half-width katakana (JIS X 0201, 7-bit).  They are read as ASCII. -/
theorem C81_katakana_violated {s : Static π} {e : Lens π Jis.Priv} {C : Jis.Codecs} {T : JisTables} (hT : JisTables.fine T = true) (h : ReadsJis s e C T)
    {p : Nat → π} {m : JisSet} (hp : JisIdle m (e.get (p 0))) {w : List Nat} (hw : ∀ c ∈ w, 0x21 ≤ c ∧ c ≤ 0x5F ∧ T.x0201.reads.find c = none) :
    ReadsAs s p ([0x1B, 0x28, 0x49] ++ w) w := by
  have hc : T.chars m (.switch .x0201 [0x1B, 0x28, 0x49] :: w.map .code) = some w := by
    have hk : T.chars .x0201 (w.map .code) = some w := by
      induction w with
      | nil => rfl
      | cons c w ih =>
        obtain ⟨k1, k2, k3⟩ := hw c (by simp)
        have : T.char .x0201 c = some c := by
          simp only [JisTables.char, k3]
          rw [if_pos (by omega)]
        rw [List.map_cons, JisTables.chars, this, ih (fun c hc => hw c (by simp [hc]))]
        rfl
    rw [JisTables.chars, if_pos (by decide)]
    exact hk
  have := C81_readsAs hT h hp hc
  rw [List.flatMap_cons, List.flatMap_map] at this
  have e1 : List.flatMap (fun c => (JisItem.code c).bytes) w = w := by
    have : ∀ c ∈ w, (JisItem.code c).bytes = [c] := by
      intro c hc
      have := hw c hc
      exact be1 (by omega)
    rw [List.flatMap_def, List.map_congr_left this, ← List.flatMap_def]
    exact List.flatMap_singleton' w
  rw [e1] at this
  exact this

/-- While `_JIS` gives up on every byte and stays as it is, the bytes are read as ASCII. -/
theorem jis_stuck {e : Lens π Jis.Priv} {C : Jis.Codecs} : ∀ {w : List Nat} {p : Nat → π},
    (∀ c ∈ w, 1 ≤ c ∧ c < 0x80 ∧ Jis.step C (e.get (p 0)) c = (e.get (p 0), [], some .deadend)) →
    (decode (jisReaders e C) 1 p w).out = textData w ∧ (decode (jisReaders e C) 1 p w).errors = 0
  | [], p, _ => by rw [decode_nil]; exact ⟨rfl, rfl⟩
  | c :: w, p, h => by
    obtain ⟨h1, h2, h3⟩ := h c (by simp)
    rw [(decode_some (by simp) (jis_fallback h1 h2 (jis_dead h3 _ _))).1]
    have e1 : e.get (setPriv (setPriv p 0 (e.put (e.get (p 0)) (p 0))) 1 (p 1) 0) = e.get (p 0) := by simp [setPriv, e.get_put]
    obtain ⟨a, b⟩ := jis_stuck (p := setPriv (setPriv p 0 (e.put (e.get (p 0)) (p 0))) 1 (p 1)) (w := w)
      (by rw [e1]; exact fun c hc => h c (by simp [hc]))
    simp only [a, b, and_true]
    rfl

theorem jis_reads {s : Static π} {e : Lens π Jis.Priv} {C : Jis.Codecs} {T : JisTables} (hT : JisTables.fine T = true) (h : ReadsJis s e C T)
    {p : Nat → π} {m : JisSet} (hp : JisIdle m (e.get (p 0))) {w cps : List Nat} (hw : IsBytes w)
    (hd : (decode (jisReaders e C) 1 p w).out = textData cps ∧ (decode (jisReaders e C) 1 p w).errors = 0) : ReadsAs s p w cps := by
  refine ⟨hw, _, jis_real hT h (jisIdle_inv hp), ?_⟩
  intro ds hds
  simp only [decoderProc, hds]
  exact ⟨hd.1, hd.2, trivial, trivial⟩

/-- C81, not so: the escape sequence of JIS X 0212 in ISO-2022-JP-1 and -2 is ESC $ ( D.  It is not known to the decoder (which knows ESC ( $ D); the
sequence and the codes after it are read as ASCII, and no error is counted. -/
theorem C81_0212_violated {s : Static π} {e : Lens π Jis.Priv} {C : Jis.Codecs} {T : JisTables} (hT : JisTables.fine T = true) (h : ReadsJis s e C T)
    {p : Nat → π} {m : JisSet} (hp : JisIdle m (e.get (p 0))) {w : List Nat} (hw : ∀ c ∈ w, 1 ≤ c ∧ c < 0x80 ∧ c ≠ 0x40 ∧ c ≠ 0x42) :
    ReadsAs s p ([0x1B, 0x24, 0x28, 0x44] ++ w) ([0x1B, 0x24, 0x28, 0x44] ++ w) := by
  refine jis_reads hT h hp ?_ ?_
  · intro b hb
    rcases List.mem_append.1 hb with hb | hb
    · simp at hb; omega
    · have := hw b hb; omega
  · obtain ⟨_, h2, _⟩ := hp
    have h0 : Jis.step C (e.get (p 0)) 0x1B = ({ e.get (p 0) with esc := .esc }, [], some .cont) := by simp [Jis.step, h2]
    obtain ⟨x', hx, hr⟩ : ∃ x', (e.get x').esc = .dollar ∧ (((Jis.machine C).on e).reader).read (p 0) [] (0x1B :: ([0x24, 0x28, 0x44] ++ w)) = .dead x' := by
      rw [jis_more h0, List.cons_append, jis_more (t := { e.get (p 0) with esc := .dollar }) (by simp [Jis.step, e.get_put]), List.cons_append,
        jis_dead (t := { e.get (p 0) with esc := .dollar }) (by simp [Jis.step, e.get_put])]
      exact ⟨_, by rw [e.get_put], rfl⟩
    show (decode (jisReaders e C) 1 p (0x1B :: ([0x24, 0x28, 0x44] ++ w))).out = _ ∧ (decode (jisReaders e C) 1 p (0x1B :: ([0x24, 0x28, 0x44] ++ w))).errors = 0
    rw [(decode_some (by simp) (jis_fallback (by omega) (by omega) hr)).1]
    have := jis_stuck (e := e) (C := C) (p := setPriv (setPriv p 0 x') 1 (p 1)) (w := [0x24, 0x28, 0x44] ++ w) (by
      intro c hc
      have hc' : 1 ≤ c ∧ c < 0x80 ∧ c ≠ 0x40 ∧ c ≠ 0x42 := by
        rcases List.mem_append.1 hc with hc | hc
        · simp at hc; omega
        · exact hw c hc
      refine ⟨hc'.1, hc'.2.1, ?_⟩
      simp [setPriv, hx, Jis.step, hc'.2.2.1, hc'.2.2.2])
    simp only [this.1, this.2, and_true]
    rfl

/-- C81, not so: after ESC and a byte that continues no escape sequence, the decoder takes what follows as the continuation: `( B` is lost, without an
error. -/
theorem C81_stale_violated {s : Static π} {e : Lens π Jis.Priv} {C : Jis.Codecs} {T : JisTables} (hT : JisTables.fine T = true) (h : ReadsJis s e C T)
    {p : Nat → π} {m : JisSet} (hp : JisIdle m (e.get (p 0))) {a : Nat} (ha : 1 ≤ a ∧ a < 0x80 ∧ a ≠ 0x24 ∧ a ≠ 0x28)
    {is : List JisItem} {cps : List Nat} (hc : T.chars .ascii is = some cps) :
    ReadsAs s p ([0x1B, a, 0x28, 0x42] ++ is.flatMap JisItem.bytes) ([0x1B, a] ++ cps) := by
  refine jis_reads hT h hp ?_ ?_
  · intro b hb
    rcases List.mem_append.1 hb with hb | hb
    · simp at hb; omega
    · exact (jis_bytes hT hc).1 b hb
  · obtain ⟨_, h2, _⟩ := hp
    generalize hR : is.flatMap JisItem.bytes = R
    have h0 : Jis.step C (e.get (p 0)) 0x1B = ({ e.get (p 0) with esc := .esc }, [], some .cont) := by simp [Jis.step, h2]
    have ha' : ∀ t : Jis.Priv, t.esc = .esc → Jis.step C t a = (t, [], some .deadend) := by
      intro t ht; simp [Jis.step, ht, ha.2.2.1, ha.2.2.2]
    obtain ⟨x1, hx1, hr⟩ : ∃ x', (e.get x').esc = .esc ∧ (((Jis.machine C).on e).reader).read (p 0) [] (0x1B :: (a :: 0x28 :: 0x42 :: R)) = .dead x' := by
      rw [jis_more h0, jis_dead (ha' _ (by rw [e.get_put]))]
      exact ⟨_, by rw [e.get_put, e.get_put], rfl⟩
    show (decode (jisReaders e C) 1 p (0x1B :: (a :: 0x28 :: 0x42 :: R))).out = _ ∧ (decode (jisReaders e C) 1 p (0x1B :: (a :: 0x28 :: 0x42 :: R))).errors = 0
    rw [(decode_some (by simp) (jis_fallback (by omega) (by omega) hr)).1]
    generalize hq : setPriv (setPriv p 0 x1) 1 (p 1) = q
    have hq0 : (e.get (q 0)).esc = .esc := by rw [← hq]; simp [setPriv, hx1]
    have hr2 := jis_dead (C := C) (ha' _ hq0) [] (0x28 :: 0x42 :: R)
    rw [(decode_some (by simp) (jis_fallback ha.1 ha.2.1 hr2)).1]
    generalize hq' : setPriv (setPriv q 0 _) 1 (q 1) = q'
    have hq1 : (e.get (q' 0)).esc = .esc := by rw [← hq']; simp [setPriv, e.get_put, hq0]
    obtain ⟨x3, hx3, hr3⟩ : ∃ x', JisIdle .ascii (e.get x') ∧ (((Jis.machine C).on e).reader).read (q' 0) [] (0x28 :: 0x42 :: R) = .done R x' [] := by
      rw [jis_more (t := { e.get (q' 0) with esc := .paren }) (by simp [Jis.step, hq1]),
        jis_done (t := ⟨.ascii, .none, (e.get (q' 0)).cstate⟩) (out := []) (by simp [Jis.step, e.get_put])]
      exact ⟨_, ⟨by rw [e.get_put]; rfl, by rw [e.get_put], fun h => absurd rfl h⟩, rfl⟩
    have hr4 : resume (jisReaders e C) 1 0 q' [] (0x28 :: 0x42 :: R) = (setPriv q' 0 x3, some (R, [])) := by
      rw [resume_eq]
      simp only [jisReaders, if_true, hr3]
    rw [(decode_some (by simp) hr4).1, ← hR]
    have := jis_decode (e := e) (C := C) hT (jis_codecs hT h) hc (p := setPriv q' 0 x3) (by simp [setPriv]; exact hx3)
    simp only [this.1, this.2, and_true]
    rfl

end Verif.Props
