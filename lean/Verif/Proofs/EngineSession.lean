import Verif.Proofs.EnginePhase
import Verif.Spec.Proc

/-! The session theorem. -/

namespace Verif.Engine
open Verif.Spec

variable {π : Type}

/-- All data consist of bytes. -/
def AllBytes (ds : List Datum) : Prop := ∀ d ∈ ds, IsBytes d

/-- `F` does to `ds` what `P` says, and puts out bytes. -/
structure Agrees (F : Beh π) (P : Proc π) (ds : List Datum) : Prop where
  out : F.out ds = P.out ds
  inE : F.inE ds = P.inErrors ds
  outE : F.outE ds = P.outErrors ds
  fin : ∀ q, F.fin ds q → P.fin ds q
  bytes : AllBytes (P.out ds)

/-- The phase `s`, started with private data satisfying `init`, behaves as the processor `P`. -/
def Realises (s : Static π) (init : (Nat → π) → Prop) (P : Proc π) : Prop :=
  ∃ (K : Kind s) (F : Beh π), K.dec = P.dec ∧ (∀ ds, AllBytes ds → P.ok ds → Agrees F P ds) ∧
    ∀ l fut, AllBytes fut → Fresh l → init l.ph.priv → P.ok fut → K.Inv F l [] fut

/-- The phases of an instance behave as the processors of a chain, when its private data has been set up
by `bsdconv_init`.  Two decoding phases are never adjacent (only the first phase group of a conversion
string can be decoding). -/
structure Chain (st : Nat → Static π) (ip : Nat → Nat → π → π) (ins : Ins π) (L : List (Proc π)) : Prop where
  ne : L ≠ []
  real : ∀ k (h : k < L.length), Realises (st (k + 1)) (fun p => p = ((ins.init st ip).ph (k + 1)).priv) L[k]
  alt : ∀ k (h : k + 1 < L.length), L[k].dec = true → L[k + 1].dec = false

theorem Realises.mono {s : Static π} {i j : (Nat → π) → Prop} {P : Proc π} (h : Realises s i P)
    (hij : ∀ p, j p → i p) : Realises s j P := by
  obtain ⟨K, F, h1, h2, h3⟩ := h
  exact ⟨K, F, h1, h2, fun l fut x a b c => h3 l fut x a (hij _ b) c⟩

/-- Replace the description of a phase by a weaker or equivalent one. -/
theorem Realises.as {s : Static π} {i : (Nat → π) → Prop} {P Q : Proc π} (h : Realises s i P) (hd : P.dec = Q.dec)
    (hok : ∀ ds, AllBytes ds → Q.ok ds → P.ok ds)
    (hq : ∀ ds, AllBytes ds → Q.ok ds → P.out ds = Q.out ds ∧ P.inErrors ds = Q.inErrors ds ∧
      P.outErrors ds = Q.outErrors ds ∧ ∀ q, P.fin ds q → Q.fin ds q) : Realises s i Q := by
  obtain ⟨K, F, h1, h2, h3⟩ := h
  refine ⟨K, F, h1.trans hd, ?_, fun l fut x a b c => h3 l fut x a b (hok _ x c)⟩
  intro ds hb hk
  have g := h2 ds hb (hok ds hb hk)
  obtain ⟨a, b, c, d⟩ := hq ds hb hk
  exact ⟨g.out.trans a, g.inE.trans b, g.outE.trans c, fun q hf => d q (g.fin q hf), a ▸ g.bytes⟩

/-- The empty processor, standing in for phases that do not exist. -/
def Proc.nil : Proc π := { out := fun _ => [] }

/-- Phase `k` (from 1) of a list. -/
def nthP (L : List (Proc π)) (k : Nat) : Proc π := L.getD (k - 1) Proc.nil

theorem nthP_eq {L : List (Proc π)} {k : Nat} (h : k < L.length) : nthP L (k + 1) = L[k] := by
  simp [nthP, List.getD_eq_getElem?_getD, List.getElem?_eq_getElem h]

theorem streamP_shift (p : Proc π) (L : List (Proc π)) (ds : List Datum) (k : Nat) :
    stream (fun k => (nthP (p :: L) k).out) ds (k + 1) = stream (fun k => (nthP L k).out) (p.out ds) k := by
  induction k with
  | zero => rfl
  | succ k ih =>
    rw [stream, ih]
    simp only [stream]
    rfl

theorem streamP_take (L : List (Proc π)) (ds : List Datum) {k : Nat} (hk : k ≤ L.length) :
    stream (fun k => (nthP L k).out) ds k = runProcs (L.take k) ds := by
  induction L generalizing ds k with
  | nil => simp at hk; subst hk; rfl
  | cons p L ih =>
    cases k with
    | zero => rfl
    | succ k => rw [streamP_shift, ih _ (by simpa using hk)]; rfl

theorem streamP_run (L : List (Proc π)) (ds : List Datum) :
    stream (fun k => (nthP L k).out) ds L.length = runProcs L ds := by
  rw [streamP_take L ds (Nat.le_refl _), List.take_length]

theorem sum_runIn (L : List (Proc π)) (ds : List Datum) :
    sumTo (fun k => (nthP L k).inErrors (stream (fun k => (nthP L k).out) ds (k - 1))) L.length
      = runIn L ds := by
  induction L generalizing ds with
  | nil => rfl
  | cons p L ih =>
    rw [List.length_cons, sumTo_shift, runIn, ← ih (p.out ds)]
    congr 1
    refine sumTo_congr ?_
    intro k h1 h2
    obtain ⟨j, rfl⟩ : ∃ j, k = j + 1 := ⟨k - 1, by omega⟩
    simp only [Nat.add_sub_cancel]
    rw [streamP_shift]
    rfl

theorem sum_runOut (L : List (Proc π)) (ds : List Datum) :
    sumTo (fun k => (nthP L k).outErrors (stream (fun k => (nthP L k).out) ds (k - 1))) L.length
      = runOut L ds := by
  induction L generalizing ds with
  | nil => rfl
  | cons p L ih =>
    rw [List.length_cons, sumTo_shift, runOut, ← ih (p.out ds)]
    congr 1
    refine sumTo_congr ?_
    intro k h1 h2
    obtain ⟨j, rfl⟩ : ∃ j, k = j + 1 := ⟨k - 1, by omega⟩
    simp only [Nat.add_sub_cancel]
    rw [streamP_shift]
    rfl

theorem okRest_at {L : List (Proc π)} {ds : List Datum} (h : OkRest L ds) :
    ∀ k, 1 ≤ k → k ≤ L.length →
      (nthP L k).inErrors (stream (fun k => (nthP L k).out) ds (k - 1)) = 0 ∧
      (nthP L k).ok (stream (fun k => (nthP L k).out) ds (k - 1)) := by
  induction L generalizing ds with
  | nil => intro k h1 h2; simp at h2; omega
  | cons p L ih =>
    obtain ⟨a, b, c⟩ := h
    intro k h1 h2
    by_cases hk : k = 1
    · subst hk; exact ⟨a, b⟩
    · obtain ⟨j, rfl⟩ : ∃ j, k = j + 1 + 1 := ⟨k - 2, by omega⟩
      have := ih c (j + 1) (by omega) (by simp at h2; omega)
      simp only [Nat.add_sub_cancel] at this ⊢
      rw [streamP_shift]
      exact this

/-- The session theorem for chains of processors. -/
theorem session_procs {st : Nat → Static π} {ip : Nat → Nat → π → π} {ins : Ins π} {L : List (Proc π)}
    (hL : Chain st ip ins L) (hn : ins.phasen = L.length)
    (as : List Arg) (a : Arg) (hflush : ∀ x ∈ as, x.flush = false) (hlast : a.flush = true)
    (hmode : ∀ x ∈ as ++ [a], x.mode ≠ .null) (hbytes : ∀ x ∈ as ++ [a], ∀ c ∈ x.input, IsBytes c)
    (inp : List Datum) (hin : (as ++ [a]).filterMap (fun x => x.input) = inp) (ht : OkAll L inp) :
    ∃ ds ins', Session st (ins.init st ip) (as ++ [a]) ds ins' ∧
      (ds.map (fun d => d.bytes)).flatten ++ ins'.pending.flatten = (runProcs L inp).flatten ∧
      ((∀ x ∈ as ++ [a], x.mode = .hold) → nonEmpty ins'.pending = nonEmpty (runProcs L inp)) ∧
      ins'.ierr = ins.ierr + runIn L inp ∧ ins'.oerr = ins.oerr + runOut L inp ∧
      (∀ k (h : k < L.length), L[k].fin (runProcs (L.take k) inp) (ins'.ph (k + 1)).priv) ∧
      Idle ins' ∧ NoPending ins' ∧ ins'.phasen = L.length := by
  have hpos : 1 ≤ L.length := List.length_pos_iff.2 hL.ne
  -- phases outside the range get some kind as well: the one of phase 1
  have hK : ∀ k, 1 ≤ k → k ≤ L.length → ∃ (K : Kind (st k)) (F : Beh π), K.dec = (nthP L k).dec ∧
      (∀ ds, AllBytes ds → (nthP L k).ok ds → Agrees F (nthP L k) ds) ∧
      ∀ l fut, AllBytes fut → Fresh l → l.ph.priv = ((ins.init st ip).ph k).priv →
        (nthP L k).ok fut → K.Inv F l [] fut := by
    intro k h1 h2
    obtain ⟨j, rfl⟩ : ∃ j, k = j + 1 := ⟨k - 1, by omega⟩
    rw [nthP_eq (by omega)]
    exact hL.real j (by omega)
  have hall : ∀ k, ∃ KF : Kind (st k) × Beh π, 1 ≤ k → k ≤ L.length → KF.1.dec = (nthP L k).dec ∧
      (∀ ds, AllBytes ds → (nthP L k).ok ds → Agrees KF.2 (nthP L k) ds) ∧
      ∀ l fut, AllBytes fut → Fresh l → l.ph.priv = ((ins.init st ip).ph k).priv →
        (nthP L k).ok fut → KF.1.Inv KF.2 l [] fut := by
    intro k
    by_cases h : 1 ≤ k ∧ k ≤ L.length
    · obtain ⟨K, F, hh⟩ := hK k h.1 h.2
      exact ⟨(K, F), fun _ _ => hh⟩
    · refine ⟨(emptyKind (st k), ⟨fun _ => [], fun _ => 0, fun _ => 0, fun _ => 0, fun _ _ => True, ?_⟩), ?_⟩
      · intro a b _; exact ⟨rfl, rfl, rfl, rfl, rfl⟩
      · intro h1 h2; exact absurd ⟨h1, h2⟩ h
  let KF := fun k => (hall k).choose
  have hKF : ∀ k, 1 ≤ k → k ≤ L.length → _ := fun k h1 h2 => (hall k).choose_spec h1 h2
  have hok : ∀ k, 1 ≤ k → k ≤ L.length → (nthP L k).ok (stream (fun k => (nthP L k).out) inp (k - 1)) ∧
      (2 ≤ k → (nthP L k).inErrors (stream (fun k => (nthP L k).out) inp (k - 1)) = 0) := by
    intro k h1 h2
    cases L with
    | nil => exact absurd rfl hL.ne
    | cons p ps =>
      by_cases hk : k = 1
      · subst hk; exact ⟨ht.2.1, fun h => by omega⟩
      · have := okRest_at ht.2.2 (k - 1) (by omega) (by simp at h2; omega)
        obtain ⟨j, rfl⟩ : ∃ j, k = j + 1 + 1 := ⟨k - 2, by omega⟩
        simp only [Nat.add_sub_cancel] at this ⊢
        rw [streamP_shift]; exact ⟨this.2, fun _ => this.1⟩
  have hinp : AllBytes inp := by
    subst hin
    intro d hd
    obtain ⟨x, hx, hxd⟩ := List.mem_filterMap.1 hd
    exact hbytes x hx d hxd
  have hsb : ∀ k, k ≤ L.length → stream (fun k => (KF k).2.out) inp k
      = stream (fun k => (nthP L k).out) inp k ∧ AllBytes (stream (fun k => (nthP L k).out) inp k) := by
    intro k
    induction k with
    | zero => intro _; exact ⟨rfl, hinp⟩
    | succ k ih =>
      intro hk
      obtain ⟨e, hb⟩ := ih (by omega)
      have g := (hKF (k + 1) (by omega) hk).2.1 _ hb ((hok (k + 1) (by omega) hk).1)
      exact ⟨by simp only [stream, e]; exact g.out, g.bytes⟩
  have hs : ∀ k, k ≤ L.length → stream (fun k => (KF k).2.out) inp k
      = stream (fun k => (nthP L k).out) inp k := fun k hk => (hsb k hk).1
  have hag : ∀ k, 1 ≤ k → k ≤ L.length →
      Agrees (KF k).2 (nthP L k) (stream (fun k => (nthP L k).out) inp (k - 1)) := fun k h1 h2 =>
    (hKF k h1 h2).2.1 _ (hsb (k - 1) (by omega)).2 (hok k h1 h2).1
  have hb : Built st (fun k => (KF k).1) L.length := by
    refine ⟨hpos, ?_⟩
    intro k h1 h2 h3
    rw [(hKF k h1 (by omega)).1] at h3
    rw [(hKF (k + 1) (by omega) (by omega)).1]
    obtain ⟨j, rfl⟩ : ∃ j, k = j + 1 := ⟨k - 1, by omega⟩
    rw [nthP_eq (by omega)] at h3 ⊢
    exact hL.alt j (by omega) h3
  obtain ⟨ds, ins', h1, h2, h3, h4, h5, h6, h7⟩ := session_kinds hb ip ins hn (fun k => (KF k).2) as a hflush
    hlast hmode hbytes inp hin
    (by
      have := (hag 1 (by omega) hpos).inE
      simp only [Nat.sub_self, stream] at this
      rw [this]
      cases L with
      | nil => exact absurd rfl hL.ne
      | cons p ps => exact ht.1)
    (by
      intro k a b
      rw [hs _ (by omega), (hag k (by omega) b).inE]
      exact (hok k (by omega) b).2 a)
    (by
      intro k a b
      rw [hs _ (by omega)]
      exact (hKF k a b).2.2 _ _ (hsb _ (by omega)).2 (init_fresh st ip ins a (by omega)) rfl (hok k a b).1)
  rw [hs _ (Nat.le_refl _), streamP_run] at h2
  refine ⟨ds, ins', h1, h2, ?_, ?_, ?_, ?_, h7⟩
  · intro h; rw [h3 h, hs _ (Nat.le_refl _), streamP_run]
  · rw [h4, ← sum_runIn]
    congr 1
    refine sumTo_congr ?_
    intro k a b
    rw [hs _ (by omega), (hag k a b).inE]
  · rw [h5, ← sum_runOut]
    congr 1
    refine sumTo_congr ?_
    intro k a b
    rw [hs _ (by omega), (hag k a b).outE]
  · intro k h
    have := h6 (k + 1) (by omega) (by omega)
    rw [Nat.add_sub_cancel, hs _ (by omega)] at this
    have := (hag (k + 1) (by omega) (by omega)).fin _ this
    rw [Nat.add_sub_cancel, nthP_eq h, streamP_take L inp (by omega)] at this
    exact this
where
  /-- a kind without phases -/
  emptyKind (s : Static π) : Kind s :=
    { Inv := fun _ _ _ _ => False, dec := false, pads := fun _ => 0, rank := fun _ => 0
      qok := fun h => h.elim, visit := fun h => h.elim, flush := fun h => h.elim
      append := fun h => h.elim, frame := fun h => h.elim, rank_frame := fun _ _ => rfl
      pads_frame := fun _ _ => rfl, pads_append := fun h => h.elim, idle := fun h => h.elim
      noIn := fun _ {_ _ _ _} h => h.elim }

/-! ### Table phases -/

/-- The instance's phases are table phases implementing the chain `L`.  Two decoding phases are never
adjacent (only the first segment group of a conversion string can be decoding). -/
structure Implements (st : Nat → Static π) (L : List Phase) : Prop where
  ne : L ≠ []
  tables : ∀ k (h : k < L.length), PhaseTables (st (k + 1)) L[k]
  alt : ∀ k (h : k + 1 < L.length), isDecode L[k] = true → isDecode L[k + 1] = false

/-- Phase `k` (from 1) of a list. -/
def nth (L : List Phase) (k : Nat) : Phase := L.getD (k - 1) (.decode [])

theorem nth_eq {L : List Phase} {k : Nat} (h : k < L.length) : nth L (k + 1) = L[k] := by
  simp [nth, List.getD_eq_getElem?_getD, List.getElem?_eq_getElem h]

theorem getLast_ruleAt {Rs : List (Rules Datum (List Datum))} {m : Nat} (h : Rs.length = m + 1) :
    ruleAt Rs m = Rs.getLast?.getD [] := by
  unfold ruleAt
  rw [List.getLast?_eq_getElem?, h, Nat.add_sub_cancel, List.getD_eq_getElem?_getD]

theorem tokens_bytes {α : Type} [DecidableEq α] {Rs : List (Rules α (List Datum))}
    (h : ∀ R ∈ Rs, ∀ r ∈ R, ∀ d ∈ r.2, IsBytes d) (x : List α) :
    ∀ b, Tok.hit b ∈ tokens Rs x → ∀ d ∈ b, IsBytes d := by
  have key : ∀ n (x : List α), x.length ≤ n → ∀ b, Tok.hit b ∈ tokens Rs x → ∀ d ∈ b, IsBytes d := by
    intro n
    induction n with
    | zero =>
      intro x hx b hb
      have : x = [] := List.length_eq_zero_iff.1 (by omega)
      subst this
      simp at hb
    | succ n ih =>
      intro x hx b hb
      cases x with
      | nil => simp at hb
      | cons a t =>
        cases hf : firstMatch Rs (a :: t) with
        | none =>
          rw [tokens_miss hf] at hb
          simp only [List.mem_cons, reduceCtorEq, false_or] at hb
          exact ih t (by simp at hx; omega) b hb
        | some r =>
          obtain ⟨m, b'⟩ := r
          have hp := firstMatch_pos hf
          rw [tokens_hit hf] at hb
          simp only [List.mem_cons, Tok.hit.injEq] at hb
          rcases hb with rfl | hb
          · obtain ⟨R, hR, r, hr, rfl⟩ := firstMatch_mem hf
            exact h R hR r hr
          · exact ih _ (by simp at hx; simp; omega) b hb
  exact key x.length x (Nat.le_refl _)

theorem tokens_miss_mem {α β : Type} [DecidableEq α] (Rs : List (Rules α β)) (x : List α) :
    ∀ a, Tok.miss a ∈ tokens Rs x → a ∈ x := by
  have key : ∀ n (x : List α), x.length ≤ n → ∀ a, Tok.miss a ∈ tokens Rs x → a ∈ x := by
    intro n
    induction n with
    | zero =>
      intro x hx a ha
      have : x = [] := List.length_eq_zero_iff.1 (by omega)
      subst this
      simp at ha
    | succ n ih =>
      intro x hx a ha
      cases x with
      | nil => simp at ha
      | cons c t =>
        cases hf : firstMatch Rs (c :: t) with
        | none =>
          rw [tokens_miss hf] at ha
          simp only [List.mem_cons, Tok.miss.injEq] at ha
          rcases ha with rfl | ha
          · simp
          · exact List.mem_cons_of_mem _ (ih t (by simp at hx; omega) a ha)
        | some r =>
          obtain ⟨m, b'⟩ := r
          have hp := firstMatch_pos hf
          rw [tokens_hit hf] at ha
          simp only [List.mem_cons, reduceCtorEq, false_or] at ha
          exact List.mem_of_mem_drop (ih _ (by simp at hx; simp; omega) a ha)
  exact key x.length x (Nat.le_refl _)

theorem table_bytes {s : Static π} {sp : Phase} (hs : PhaseTables s sp) {ds : List Datum} (hb : AllBytes ds) :
    AllBytes (sp.out ds) := by
  have drop : ∀ {α : Type} {ts : List (Tok α (List Datum))}, (∀ b, Tok.hit b ∈ ts → ∀ d ∈ b, IsBytes d) →
      AllBytes (dropMisses ts) := by
    intro α ts h d hd
    induction ts with
    | nil => simp [dropMisses] at hd
    | cons t ts ih =>
      cases t with
      | hit b =>
        simp only [dropMisses, List.mem_append] at hd
        rcases hd with hd | hd
        · exact h b (by simp) d hd
        · exact ih (fun b hb => h b (by simp [hb])) hd
      | miss a => exact ih (fun b hb => h b (by simp [hb])) hd
  have keep : ∀ {ts : List (Tok Datum (List Datum))}, (∀ b, Tok.hit b ∈ ts → ∀ d ∈ b, IsBytes d) →
      (∀ a, Tok.miss a ∈ ts → IsBytes a) → AllBytes (passMisses ts) := by
    intro ts h h' d hd
    induction ts with
    | nil => simp [passMisses] at hd
    | cons t ts ih =>
      cases t with
      | hit b =>
        simp only [passMisses, List.mem_append] at hd
        rcases hd with hd | hd
        · exact h b (by simp) d hd
        · exact ih (fun b hb => h b (by simp [hb])) (fun a ha => h' a (by simp [ha])) hd
      | miss a =>
        simp only [passMisses, List.mem_cons] at hd
        rcases hd with rfl | hd
        · exact h' _ (by simp)
        · exact ih (fun b hb => h b (by simp [hb])) (fun a ha => h' a (by simp [ha])) hd
  cases sp with
  | decode Rs => exact drop (tokens_bytes (fun R hR r hr d hd => ((hs.2.2.2 R hR r hr).2.2 d hd).2) _)
  | encode Rs => exact drop (tokens_bytes (fun R hR r hr d hd => ((hs.2.2.2 R hR r hr).2.2.2 d hd).2) _)
  | rewrite Rs =>
    exact keep (tokens_bytes (fun R hR r hr d hd => ((hs.2.2.2 R hR r hr).2.2.2 d hd).2) _)
      (fun a ha => hb _ (List.mem_filter.1 (tokens_miss_mem _ _ _ ha)).1)

theorem table_realises {s : Static π} {sp : Phase} (hs : PhaseTables s sp) (i : (Nat → π) → Prop) :
    Realises s i (sp.proc π) := by
  refine ⟨tableKind hs, tableBeh π sp, ?_, ?_, ?_⟩
  · cases sp <;> rfl
  · intro ds hb _
    exact ⟨rfl, rfl, rfl, fun _ h => h, table_bytes hs hb⟩
  · intro l fut _ hl _ hok
    refine table_init hs hl ?_
    rintro Rs rfl _
    rw [getLast_ruleAt hs.2.1]
    exact hok

theorem Implements.chain {st : Nat → Static π} {L : List Phase} (h : Implements st L)
    (ip : Nat → Nat → π → π) (ins : Ins π) : Chain st ip ins (L.map (Phase.proc π)) := by
  refine ⟨by simpa using h.ne, ?_, ?_⟩
  · intro k hk
    rw [List.getElem_map]
    exact table_realises (h.tables k (by simpa using hk)) _
  · intro k hk
    rw [List.getElem_map, List.getElem_map]
    have := h.alt k (by simpa using hk)
    have e : ∀ p : Phase, (p.proc π).dec = isDecode p := by intro p; cases p <;> rfl
    rw [e, e]; exact this

theorem runProcs_map (L : List Phase) (ds : List Datum) :
    runProcs (L.map (Phase.proc π)) ds = pipeline L ds ∧ runIn (L.map (Phase.proc π)) ds = pipelineIn L ds ∧
      runOut (L.map (Phase.proc π)) ds = pipelineOut L ds := by
  induction L generalizing ds with
  | nil => exact ⟨rfl, rfl, rfl⟩
  | cons p L ih =>
    obtain ⟨a, b, c⟩ := ih (p.out ds)
    exact ⟨a, by simp only [List.map_cons, runIn, pipelineIn, Phase.proc]; rw [← b],
      by simp only [List.map_cons, runOut, pipelineOut, Phase.proc]; rw [← c]⟩

theorem okAll_map {L : List Phase} {ds : List Datum} (h : Tame L ds) : OkAll (L.map (Phase.proc π)) ds := by
  have key : ∀ (L : List Phase) (ds : List Datum), TameRest L ds → OkRest (L.map (Phase.proc π)) ds := by
    intro L
    induction L with
    | nil => intro ds _; trivial
    | cons p L ih => intro ds h; exact ⟨h.1, h.2.1, ih _ h.2.2⟩
  cases L with
  | nil => trivial
  | cons p L => exact ⟨h.1, h.2.1, key _ _ h.2.2⟩

theorem session_spec {st : Nat → Static π} {L : List Phase} (hL : Implements st L)
    (ip : Nat → Nat → π → π) (ins : Ins π) (hn : ins.phasen = L.length)
    (as : List Arg) (a : Arg) (hflush : ∀ x ∈ as, x.flush = false) (hlast : a.flush = true)
    (hmode : ∀ x ∈ as ++ [a], x.mode ≠ .null) (hbytes : ∀ x ∈ as ++ [a], ∀ c ∈ x.input, IsBytes c)
    (ht : Tame L ((as ++ [a]).filterMap (fun x => x.input))) :
    ∃ ds ins', Session st (ins.init st ip) (as ++ [a]) ds ins' ∧
      (ds.map (fun d => d.bytes)).flatten ++ ins'.pending.flatten
        = (pipeline L ((as ++ [a]).filterMap (fun x => x.input))).flatten ∧
      ((∀ x ∈ as ++ [a], x.mode = .hold) →
        nonEmpty ins'.pending = nonEmpty (pipeline L ((as ++ [a]).filterMap (fun x => x.input)))) ∧
      ins'.ierr = ins.ierr + pipelineIn L ((as ++ [a]).filterMap (fun x => x.input)) ∧
      ins'.oerr = ins.oerr + pipelineOut L ((as ++ [a]).filterMap (fun x => x.input)) ∧
      Idle ins' ∧ NoPending ins' ∧ ins'.phasen = L.length := by
  obtain ⟨ds, ins', h1, h2, h3, h4, h5, _, h6, h7, h8⟩ := session_procs (hL.chain ip ins)
    (by simpa using hn) as a hflush hlast hmode hbytes _ rfl (okAll_map ht)
  obtain ⟨e1, e2, e3⟩ := runProcs_map (π := π) L ((as ++ [a]).filterMap (fun x => x.input))
  rw [e1] at h2 h3
  rw [e2] at h4
  rw [e3] at h5
  exact ⟨ds, ins', h1, h2, h3, h4, h5, h6, h7, by simpa using h8⟩

end Verif.Engine
