import Verif.Proofs.Nfc
import Verif.Model.NfcTable
import Verif.Props.Normal
/-
C30: canonical composition, inter/_NFC.
-/
namespace Verif.Props
open Verif.Spec
open Verif.Engine hiding Datum step
open Verif.Inter (plain flushing order)

variable {π : Type} {st : Nat → Static π} {ip : Nat → Nat → π → π} {ins : Ins π} {pre post : List (Proc π)} {s : Static π}

theorem classed_of {d : Datum} (h : IsBytes d) : Classed d := (ccc_eq h).1

/-- What `cbinit` leaves. -/
theorem nfc_init (t : Nfc) : t.init.on = false ∧ t.init.pending = [] := ⟨rfl, rfl⟩

/-- C30.  Whatever the chunking, the output modes and the other phases, a phase `_NFC` changes the sequence of its data only by
replacing a starter and a later character, with no starter in between, by their composite in the table, in the place of the
starter; when the data are in canonical order (as `_NF-ORDER` leaves them) and the table is closed, it is the canonical
composition of the Unicode standard.  On data in another order it may combine a character that is blocked
(`C30_blocked_violated`). -/
theorem C30_compose_partial (h : Placed st ip ins pre s post) {e : Lens π Nfc} {comb : Datum → Datum → Option Datum}
    (hs : Only s .inter (nfcCodec e comb)) (hi : ∀ x, e.get (ip (pre.length + 1) 0 x) = (e.get x).init)
    (hf : ∀ s c x, comb s c = some x → IsBytes x ∧ isStarter x) :
    ∃ f : List Datum → List Datum, Converts st ip ins (pre ++ { out := f } :: post) ∧
      ∀ ds, AllBytes ds → Combines comb (nonEmpty ds) (f ds) ∧
        (InOrder (nonEmpty ds) → Closed comb → f ds = compose comb (nonEmpty ds)) := by
  have hp := initPriv_get (st := st) (placed_le h) (by omega) e Nfc.init hi
  have hfine : FineComb comb := by
    intro s c x hx
    refine ⟨?_, (hf s c x hx).1⟩
    rintro rfl
    exact absurd (hf s c [] hx).2.1 (by simp [char?])
  have hreal := nfc_realises (s := s) ⟨hs.type, hs.one, hs.codec, hfine⟩ (e := e) (p := initPriv st ip ins (pre.length + 1))
    (by rw [hp]; exact (nfc_init _).1) (by rw [hp]; exact (nfc_init _).2)
  refine ⟨_, placed_converts h hreal rfl, ?_⟩
  intro ds hb
  have hcl : ∀ d ∈ nonEmpty ds, Classed d := fun d hd => classed_of ((nonEmpty_bytes hb).1 d hd)
  rw [hp]
  constructor
  · have := nfcRun_combines (fun s c x hx => (hf s c x hx).2) _ (Nfc.init (e.get ((ins.ph (pre.length + 1)).priv 0))) (nonEmpty ds) (Nat.le_refl _)
      ⟨fun k => by simp [Nfc.init] at k, ⟨by simp [Nfc.init], by simp [Nfc.init], by simp [Nfc.init]⟩, fun _ => rfl⟩ hcl
    simpa [Nfc.held, Nfc.init] using this
  · intro ho hc
    exact (nfcRun_compose hc _ hcl).1 _ rfl rfl ho

/-- The same, the data being in canonical order. -/
theorem C30_ordered (h : Placed st ip ins pre s post) {e : Lens π Nfc} {comb : Datum → Datum → Option Datum}
    (hs : Only s .inter (nfcCodec e comb)) (hi : ∀ x, e.get (ip (pre.length + 1) 0 x) = (e.get x).init)
    (hf : ∀ s c x, comb s c = some x → IsBytes x ∧ x ≠ []) (hc : Closed comb) :
    Converts st ip ins (pre ++ { out := fun ds => compose comb (nonEmpty ds), ok := fun ds => InOrder (nonEmpty ds) } :: post) := by
  have hp := initPriv_get (st := st) (placed_le h) (by omega) e Nfc.init hi
  have hreal := nfc_realises (s := s) ⟨hs.type, hs.one, hs.codec, fun s c x hx => ⟨(hf s c x hx).2, (hf s c x hx).1⟩⟩
    (e := e) (p := initPriv st ip ins (pre.length + 1)) (by rw [hp]; exact (nfc_init _).1) (by rw [hp]; exact (nfc_init _).2)
  refine placed_converts h (hreal.as rfl (fun _ _ _ => trivial) ?_) rfl
  intro ds hb ho
  refine ⟨?_, rfl, rfl, fun _ _ => trivial⟩
  rw [hp]
  exact (nfcRun_compose hc _ (fun d hd => classed_of ((nonEmpty_bytes hb).1 d hd))).1 _ rfl rfl ho

theorem inOrder_sorted : ∀ {l : List Datum}, l.Pairwise (fun a b => combining a ≤ combining b) → InOrder l
  | [], _ => trivial
  | [_], _ => trivial
  | a :: b :: l, h => ⟨.inr ((List.pairwise_cons.1 h).1 b (by simp)), inOrder_sorted (List.pairwise_cons.1 h).2⟩

theorem inOrder_join {x : Datum} (hx : combining x = 0) {m : List Datum} (hm : InOrder (x :: m)) : ∀ {l : List Datum}, InOrder l → InOrder (l ++ x :: m)
  | [], _ => hm
  | [_], _ => ⟨.inl hx, hm⟩
  | _ :: b :: l, h => ⟨h.1, inOrder_join hx hm (l := b :: l) h.2⟩

theorem inOrder_cons {x : Datum} (hx : combining x = 0) {m : List Datum} (hm : InOrder m) : InOrder (x :: m) := by
  cases m with
  | nil => trivial
  | cons b m => exact ⟨.inr (by omega), hm⟩

/-- C30.  What `_NF-ORDER` puts out is in canonical order. -/
theorem C30_inOrder (ds : List Datum) : InOrder (reorder combining ds) := by
  have : ∀ (ds r : List Datum), InOrder (reorderFrom combining r ds) := by
    intro ds
    induction ds with
    | nil => intro r; exact inOrder_sorted (byClass_sorted combining r)
    | cons d ds ih =>
      intro r
      rw [reorderFrom]
      split
      · rename_i h0
        exact inOrder_join h0 (inOrder_cons h0 (ih [])) (inOrder_sorted (byClass_sorted combining r))
      · exact ih _
  exact this ds []

/-! ### The table the codec comes with -/

/-- The composite of two data in /repo/modules/inter/_NFC-MAP.txt. -/
def nfcTable (s c : Datum) : Option Datum :=
  (Nfc.rules.find? fun r => s == uniDatum r.1 && c == uniDatum r.2.1).map fun r => uniDatum r.2.2.1

set_option maxRecDepth 100000 in
theorem rules_small : Nfc.rules.all (fun r => decide (r.1 < 2 ^ 32 ∧ r.2.1 < 2 ^ 32 ∧ r.2.2.1 < 2 ^ 32)) = true := by decide +kernel

set_option maxRecDepth 100000 in
theorem rules_class : Nfc.rules.all (fun r => Inter.ccc (uniDatum r.2.1) == r.2.2.2 && Inter.ccc (uniDatum r.2.2.1) == 0) = true := by
  decide +kernel

/-- The rules whose character has a class from `a` to `b`. -/
def rulesOf (a b : Nat) : List (Nat × Nat × Nat × Nat) := Nfc.rules.filter fun r => Nat.ble a r.2.2.2 && Nat.ble r.2.2.2 b

/-- No rule of `l` combines with the composite of `r1` and a character of a class below that of `r1`'s, except those whose
character combines with the starter of `r1`. -/
def noClash (r1 : Nat × Nat × Nat × Nat) : List (Nat × Nat × Nat × Nat) → Bool
  | [] => true
  | r2 :: l =>
    (if Nat.beq r2.1 r1.2.2.1 then
      Nat.ble r1.2.2.2 r2.2.2.2 || Nfc.rules.any fun r3 => Nat.beq r3.1 r1.1 && Nat.beq r3.2.1 r2.2.1
     else true) && noClash r1 l

set_option maxRecDepth 100000 in
theorem rules_closed1 : ((rulesOf 2 255).all fun r1 => noClash r1 (rulesOf 1 229)) = true := by decide +kernel

set_option maxRecDepth 100000 in
theorem rules_closed2 : ((rulesOf 231 255).all fun r1 => noClash r1 (rulesOf 230 255)) = true := by decide +kernel

theorem noClash_mem {r1 r2 : Nat × Nat × Nat × Nat} : ∀ {l}, noClash r1 l = true → r2 ∈ l → r2.1 = r1.2.2.1 → r2.2.2.2 < r1.2.2.2 →
    ∃ r3 ∈ Nfc.rules, r3.1 = r1.1 ∧ r3.2.1 = r2.2.1
  | [], _, h, _, _ => by simp at h
  | q :: l, h, hm, h1, h2 => by
    simp only [noClash, Bool.and_eq_true] at h
    rcases List.mem_cons.1 hm with e | hm
    · subst e
      have := h.1
      rw [if_pos (by simp [h1]), Bool.or_eq_true, Nat.ble_eq] at this
      rcases this with k | k
      · omega
      · obtain ⟨r3, k1, k2⟩ := List.any_eq_true.1 k
        simp only [Bool.and_eq_true, Nat.beq_eq] at k2
        exact ⟨r3, k1, k2⟩
    · exact noClash_mem h.2 hm h1 h2

/-- A composite comes from a rule. -/
theorem nfcTable_rule {s c x : Datum} (h : nfcTable s c = some x) :
    ∃ r ∈ Nfc.rules, s = uniDatum r.1 ∧ c = uniDatum r.2.1 ∧ x = uniDatum r.2.2.1 := by
  unfold nfcTable at h
  cases hf : Nfc.rules.find? fun r => s == uniDatum r.1 && c == uniDatum r.2.1 with
  | none => rw [hf] at h; simp at h
  | some r =>
    rw [hf] at h
    have h1 := List.find?_some hf
    simp only [Bool.and_eq_true, beq_iff_eq] at h1
    exact ⟨r, List.mem_of_find?_eq_some hf, h1.1, h1.2, by simpa using h.symm⟩

theorem nfcTable_hit {r : Nat × Nat × Nat × Nat} (h : r ∈ Nfc.rules) : nfcTable (uniDatum r.1) (uniDatum r.2.1) ≠ none := by
  unfold nfcTable
  simp only [ne_eq, Option.map_eq_none_iff, List.find?_eq_none, Bool.and_eq_true, beq_iff_eq, not_and]
  intro k
  exact k r h rfl rfl

theorem uni_inj {a b : Nat} (ha : a < 2 ^ 32) (hb : b < 2 ^ 32) (h : uniDatum a = uniDatum b) : a = b := by
  have := congrArg char? h
  rw [char_uni ha, char_uni hb] at this
  simpa using this

theorem rule_facts {r : Nat × Nat × Nat × Nat} (h : r ∈ Nfc.rules) :
    r.1 < 2 ^ 32 ∧ r.2.1 < 2 ^ 32 ∧ r.2.2.1 < 2 ^ 32 ∧ combining (uniDatum r.2.1) = r.2.2.2 ∧ combining (uniDatum r.2.2.1) = 0 := by
  have h1 := of_decide_eq_true (List.all_eq_true.1 rules_small r h)
  have h2 := List.all_eq_true.1 rules_class r h
  simp only [Bool.and_eq_true, beq_iff_eq] at h2
  have h3 := ccc_eq (uniDatum_bytes r.2.1)
  have h4 := ccc_eq (uniDatum_bytes r.2.2.1)
  exact ⟨h1.1, h1.2.1, h1.2.2, by have := h2.1; omega, by have := h2.2; omega⟩

/-- C30.  The composites of the table are starters. -/
theorem C30_table_starters (s c x : Datum) (h : nfcTable s c = some x) : IsBytes x ∧ isStarter x := by
  obtain ⟨r, hr, _, _, rfl⟩ := nfcTable_rule h
  have := rule_facts hr
  exact ⟨uniDatum_bytes _, by rw [char_uni this.2.2.1]; rfl, this.2.2.2.2⟩

/-- C30.  The table is closed: no character that was passed over could combine with a later composite. -/
theorem C30_table_closed : Closed nfcTable := by
  intro s c x p hx hp hlt hn
  cases hy : nfcTable x p with
  | none => rfl
  | some y =>
    obtain ⟨r1, m1, rfl, rfl, rfl⟩ := nfcTable_rule hx
    obtain ⟨r2, m2, e1, rfl, rfl⟩ := nfcTable_rule hy
    have f1 := rule_facts m1
    have f2 := rule_facts m2
    have e := uni_inj f1.2.2.1 f2.1 e1
    rw [f2.2.2.2.1] at hp hlt
    rw [f1.2.2.2.1] at hlt
    have hb : r1.2.2.2 < 256 := by rw [← f1.2.2.2.1]; exact (ccc_eq (uniDatum_bytes _)).2
    have mem : ∀ a b (r : Nat × Nat × Nat × Nat), r ∈ Nfc.rules → a ≤ r.2.2.2 → r.2.2.2 ≤ b → r ∈ rulesOf a b := by
      intro a b r h1 h2 h3
      simp [rulesOf, List.mem_filter, h1, h2, h3]
    have hcl : ∃ r3 ∈ Nfc.rules, r3.1 = r1.1 ∧ r3.2.1 = r2.2.1 := by
      by_cases h : r2.2.2.2 < 230
      · exact noClash_mem (List.all_eq_true.1 rules_closed1 r1 (mem _ _ r1 m1 (by omega) (by omega))) (mem _ _ r2 m2 (by omega) (by omega)) e.symm hlt
      · exact noClash_mem (List.all_eq_true.1 rules_closed2 r1 (mem _ _ r1 m1 (by omega) (by omega))) (mem _ _ r2 m2 (by omega) (by omega)) e.symm hlt
    obtain ⟨r3, m3, a, b⟩ := hcl
    have := nfcTable_hit m3
    rw [a, b] at this
    exact absurd hn this

/-- C30.  `_NF-ORDER` and then `_NFC` with its table, anywhere in a conversion, whatever the chunking: the data in canonical
order, composed as in the Unicode standard. -/
theorem C30_order_compose {s1 s2 : Static π} (h : Placed2 st ip ins pre s1 s2 post) {e1 : Lens π (List (Int × Datum))} {e2 : Lens π Nfc}
    (hs1 : Only s1 .inter (flushing e1 order)) (hs2 : Only s2 .inter (nfcCodec e2 nfcTable))
    (hi1 : ∀ x, ip (pre.length + 1) 0 x = x) (hq : e1.get ((ins.ph (pre.length + 1)).priv 0) = [])
    (hi2 : ∀ x, e2.get (ip (pre.length + 2) 0 x) = (e2.get x).init) :
    Converts st ip ins (pre ++ { out := fun ds => reorder combining (nonEmpty ds), fin := fun _ q => e1.get (q 0) = [] } ::
      { out := fun ds => compose nfcTable (nonEmpty ds), ok := fun ds => InOrder (nonEmpty ds) } :: post) := by
  have hlen : pre.length + 2 ≤ ins.phasen := by have := h.phasen; omega
  have hp := initPriv_get (st := st) hlen (by omega) e2 Nfc.init hi2
  have hreal := nfc_realises (s := s2) ⟨hs2.type, hs2.one, hs2.codec, fun s c x hx => ⟨by
      rintro rfl
      exact absurd (C30_table_starters s c [] hx).2.1 (by simp [char?]), (C30_table_starters s c x hx).1⟩⟩
    (e := e2) (p := initPriv st ip ins (pre.length + 2)) (by rw [hp]; exact (nfc_init _).1) (by rw [hp]; exact (nfc_init _).2)
  have r2 : Realises s2 (fun q => q = initPriv st ip ins (pre.length + 2))
      { out := fun ds => compose nfcTable (nonEmpty ds), ok := fun ds => InOrder (nonEmpty ds) } := by
    refine hreal.as rfl (fun _ _ _ => trivial) ?_
    intro ds hb ho
    refine ⟨?_, rfl, rfl, fun _ _ => trivial⟩
    rw [hp]
    exact (nfcRun_compose C30_table_closed _ (fun d hd => classed_of ((nonEmpty_bytes hb).1 d hd))).1 _ rfl rfl ho
  exact C29_order (h.first r2 rfl) hs1 hi1 hq

/-! ### What goes wrong -/

/-- A small composition table: e + U+0301 = U+00E9. -/
def miniTable (s c : Datum) : Option Datum := if s = [1, 0x65] ∧ c = [1, 3, 1] then some [1, 0xE9] else none

def nfcPhase : Static Nfc := onePhase .inter (nfcCodec (Lens.self Nfc) miniTable)

/-- C30 is false of data that are not in canonical order: in e U+0310 U+0316 U+0301 the last character is blocked from e by the
first U+0310, which has the same class 230; but `_NFC` only remembers the class 220 of U+0316 and combines. -/
theorem C30_blocked_violated :
    (∃ ds i, Session (fun _ => nfcPhase) ((solo {}).init (fun _ => nfcPhase) (fun _ _ => Nfc.init))
      [⟨some [1, 0x65], false, .hold⟩, ⟨some [1, 3, 0x10], false, .hold⟩, ⟨some [1, 3, 0x16], false, .hold⟩, ⟨some [1, 3, 1], true, .hold⟩] ds i ∧
      nonEmpty i.pending = [[1, 0xE9], [1, 3, 0x10], [1, 3, 0x16]]) ∧
    ¬ unblocked [[1, 3, 0x10], [1, 3, 0x16]] [1, 3, 1] ∧
    compose miniTable [[1, 0x65], [1, 3, 0x10], [1, 3, 0x16], [1, 3, 1]] = [[1, 0x65], [1, 3, 0x10], [1, 3, 0x16], [1, 3, 1]] := by
  refine ⟨⟨_, _, .cons (call_eval 60 (by decide +kernel)) (.cons (call_eval 60 (by decide +kernel))
    (.cons (call_eval 60 (by decide +kernel)) (.cons (call_eval 60 (by decide +kernel)) (.nil _)))), by decide +kernel⟩, by decide +kernel, by decide +kernel⟩

/-- C30, using the instance again: a conversion that was given one starter and abandoned, then `bsdconv_init` and another starter:
the first one has been freed twice. -/
theorem C30_double_free_violated :
    ∃ ds i ds' i', Session (fun _ => nfcPhase) ((solo {}).init (fun _ => nfcPhase) (fun _ _ => Nfc.init)) [⟨some [1, 0x65], false, .hold⟩] ds i ∧
      Session (fun _ => nfcPhase) (i.init (fun _ => nfcPhase) (fun _ _ => Nfc.init)) [⟨some [1, 0x65], true, .hold⟩] ds' i' ∧
      ((i.ph 1).priv 0).bad = false ∧ ((i'.ph 1).priv 0).bad = true :=
  ⟨_, _, _, _, .cons (call_eval 60 (by decide +kernel)) (.nil _), .cons (call_eval 60 (by decide +kernel)) (.nil _), by decide +kernel, by decide +kernel⟩

/-! ### The hypotheses can be met -/

theorem mini_fine (s c x : Datum) (h : miniTable s c = some x) : IsBytes x ∧ isStarter x := by
  unfold miniTable at h
  split at h
  · simp at h; subst h; decide +kernel
  · simp at h

theorem mini_closed : Closed miniTable := by
  intro s c x p hx _ _ _
  unfold miniTable at hx ⊢
  split at hx
  · simp at hx; subst hx; simp
  · simp at hx

/-- e U+0316 U+0301 in two calls. -/
example : ∃ ds ins', Session (fun _ => nfcPhase) ((solo {}).init (fun _ => nfcPhase) (fun _ _ => Nfc.init))
      ([[1, 0x65], [1, 3, 0x16]].map (fun d => ⟨some d, false, .hold⟩) ++ [⟨some [1, 3, 1], true, .hold⟩]) ds ins' ∧
    nonEmpty ins'.pending = [[1, 0xE9], [1, 3, 0x16]] := by
  have h := C30_ordered (placed_solo nfcPhase (fun _ _ => Nfc.init) {}) (e := Lens.self Nfc) (comb := miniTable) (only_one .inter _) (fun _ => rfl)
    (fun s c x hx => ⟨(mini_fine s c x hx).1, by rintro rfl; exact absurd (mini_fine s c [] hx).2.1 (by simp [char?])⟩) mini_closed
  obtain ⟨ds, ins', a, _, b, _⟩ := h ([[1, 0x65], [1, 3, 0x16]].map (fun d => ⟨some d, false, .hold⟩))
    ⟨some [1, 3, 1], true, .hold⟩ (by simp) rfl (by simp) (by decide) _ rfl ⟨.inl rfl, ⟨.inr (by decide +kernel), .inr (by decide +kernel), trivial⟩, trivial⟩
  refine ⟨ds, ins', a, ?_⟩
  rw [b (by simp)]
  decide +kernel

/-- The instance of two phases `_NF-ORDER`, `_NFC` meets the hypotheses of `C30_order_compose`; what it makes of the decomposed
letters d U+0307 U+0323 and e U+0301 U+0301. -/
example : Placed2 (fun k => if k = 1 then onePhase .inter (flushing (⟨Prod.fst, fun t x => (t, x.2), fun _ _ => rfl, fun _ => rfl⟩ : Lens (List (Int × Datum) × Nfc) (List (Int × Datum))) order)
      else onePhase .inter (nfcCodec (⟨Prod.snd, fun t x => (x.1, t), fun _ _ => rfl, fun _ => rfl⟩ : Lens (List (Int × Datum) × Nfc) Nfc) nfcTable))
    (fun k _ x => if k = 1 then x else (x.1, x.2.init)) { ph := fun _ => { priv := fun _ => ([], {}) }, phasen := 2 } []
    (onePhase .inter (flushing (⟨Prod.fst, fun t x => (t, x.2), fun _ _ => rfl, fun _ => rfl⟩ : Lens (List (Int × Datum) × Nfc) (List (Int × Datum))) order))
    (onePhase .inter (nfcCodec (⟨Prod.snd, fun t x => (x.1, t), fun _ _ => rfl, fun _ => rfl⟩ : Lens (List (Int × Datum) × Nfc) Nfc) nfcTable)) [] ∧
    compose nfcTable (reorder combining [[1, 0x64], [1, 3, 7], [1, 3, 0x23], [1, 0x65], [1, 3, 1], [1, 3, 1]]) =
      [[1, 0x1E, 0x0D], [1, 3, 7], [1, 0xE9], [1, 3, 1]] :=
  ⟨⟨by intro k h; simp at h, rfl, rfl, by intro k h; simp at h, by intro k h; simp at h, by intro k h; simp at h, rfl⟩, by decide +kernel⟩

end Verif.Props
