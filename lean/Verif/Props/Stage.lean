import Verif.Props.Nfkd
import Verif.Props.MapTable
/-
C79: conversions through any number of phases that turn texts into texts, in particular the normalisation forms, from encoding to encoding.
-/
namespace Verif.Props
open Verif.Spec
open Verif.Engine hiding Datum step
open Verif.Inter

variable {π : Type} {st : Nat → Static π} {ip : Nat → Nat → π → π} {ins : Ins π}

/-- Phases `k0`, …, `k0 + n - 1` of the instance (phase 1 reads the input) turn every text `cps` into the text `f cps`, without errors, however
the text comes in. -/
def Stage (st : Nat → Static π) (ip : Nat → Nat → π → π) (ins : Ins π) (k0 n : Nat) (f : List Nat → List Nat) : Prop :=
  ∃ mid : List (Proc π), mid.length = n ∧
    (∀ k (h : k < mid.length), Realises (st (k + k0)) (fun p => p = initPriv st ip ins (k + k0)) mid[k]) ∧ (∀ P ∈ mid, P.dec = false) ∧
    ∀ cps, (∀ cp ∈ cps, Scalar cp) → (∀ cp ∈ f cps, Scalar cp) ∧
      OkRest mid (textData cps) ∧ runProcs mid (textData cps) = textData (f cps) ∧ runOut mid (textData cps) = 0

theorem okRest_append (A B : List (Proc π)) (ds : List Datum) : OkRest (A ++ B) ds ↔ OkRest A ds ∧ OkRest B (runProcs A ds) := by
  induction A generalizing ds with
  | nil => simp [OkRest, runProcs]
  | cons P A ih => simp only [List.cons_append, OkRest, runProcs, ih, and_assoc]

theorem runProcs_append (A B : List (Proc π)) (ds : List Datum) : runProcs (A ++ B) ds = runProcs B (runProcs A ds) := by
  induction A generalizing ds with
  | nil => rfl
  | cons P A ih => simp only [List.cons_append, runProcs, ih]

theorem runOut_append (A B : List (Proc π)) (ds : List Datum) : runOut (A ++ B) ds = runOut A ds + runOut B (runProcs A ds) := by
  induction A generalizing ds with
  | nil => simp [runOut, runProcs]
  | cons P A ih => simp only [List.cons_append, runOut, runProcs, ih, Nat.add_assoc]

/-- C79.  No phases change nothing. -/
theorem C79_none (k0 : Nat) : Stage st ip ins k0 0 (fun x => x) :=
  ⟨[], rfl, fun k h => absurd h (by simp), by simp, fun _ hc => ⟨hc, trivial, rfl, rfl⟩⟩

/-- C79.  Phases in a row do what the first do, and then what the others do. -/
theorem C79_compose {k0 n m : Nat} {f g : List Nat → List Nat} (hf : Stage st ip ins k0 n f) (hg : Stage st ip ins (k0 + n) m g) :
    Stage st ip ins k0 (n + m) (fun x => g (f x)) := by
  obtain ⟨A, a1, a2, a3, a4⟩ := hf
  obtain ⟨B, b1, b2, b3, b4⟩ := hg
  refine ⟨A ++ B, by simp [a1, b1], ?_, ?_, ?_⟩
  · intro k h
    by_cases hk : k < A.length
    · rw [List.getElem_append_left hk]; exact a2 k hk
    · rw [List.getElem_append_right (by omega)]
      have := b2 (k - A.length) (by simp at h; omega)
      rw [show k - A.length + (k0 + n) = k + k0 by omega] at this
      exact this
  · intro P hP
    rcases List.mem_append.1 hP with hP | hP
    · exact a3 P hP
    · exact b3 P hP
  · intro cps hc
    obtain ⟨p1, p2, p3, p4⟩ := a4 cps hc
    obtain ⟨q1, q2, q3, q4⟩ := b4 _ p1
    refine ⟨q1, (okRest_append _ _ _).2 ⟨p2, by rw [p3]; exact q2⟩, by rw [runProcs_append, p3, q3], by rw [runOut_append, p3, p4, q4]⟩

/-- Replace the description by an equal one. -/
theorem Stage.as {k0 n : Nat} {f g : List Nat → List Nat} (h : Stage st ip ins k0 n f) (hfg : ∀ cps, (∀ cp ∈ cps, Scalar cp) → f cps = g cps) :
    Stage st ip ins k0 n g := by
  obtain ⟨A, a1, a2, a3, a4⟩ := h
  exact ⟨A, a1, a2, a3, fun cps hc => by rw [← hfg cps hc]; exact a4 cps hc⟩

/-- C79.  The conversion `a:..:b`, whatever the phases in between, if they turn texts into texts by `f`: bytes that the first phase reads as the
text `cps` (a text in an encoding of C63, or in a character set of C76), given in any number of chunks cut anywhere, come out as `f cps` in
encoding `b`; what `b` cannot write is left out and counted. -/
theorem C79_convert {b : Target} {n : Nat} {f : List Nat → List Nat} {T cps : List Nat} (hn : ins.phasen = n + 2)
    (ha : ReadsAs (st 1) (initPriv st ip ins 1) T cps) (hc : ∀ cp ∈ cps, Scalar cp) (hf : Stage st ip ins 2 n f) (hb : b.Is (st (n + 2)))
    (as : List Arg) (l : Arg) (h1 : ∀ x ∈ as, x.flush = false) (h2 : l.flush = true) (h3 : ∀ x ∈ as ++ [l], x.mode ≠ .null)
    (h4 : ((as ++ [l]).filterMap (fun x => x.input)).flatten = T) :
    ∃ ds ins', Session st (ins.init st ip) (as ++ [l]) ds ins' ∧
      (ds.map (fun d => d.bytes)).flatten ++ ins'.pending.flatten = ((f cps).filter b.takes).flatMap b.enc ∧
      ins'.ierr = ins.ierr ∧ ins'.oerr = ins.oerr + ((f cps).filter fun cp => !b.takes cp).length := by
  obtain ⟨mid, m1, m2, m3, m4⟩ := hf
  obtain ⟨c1, c2, c3, c4⟩ := m4 cps hc
  rw [← m1] at hn hb
  obtain ⟨ds, ins', k1, k2, k3, k4⟩ := C63_reads hn cps (f cps) ha hb m2 m3 c1 c2 c3 as l h1 h2 h3 h4
  exact ⟨ds, ins', k1, k2, k3, by rw [k4, c4]; rfl⟩

/-! ### What the phases may be -/

/-- C79.  A rule file that replaces character by character (C72). -/
theorem C79_map {k0 : Nat} {t : Pages} (h : Maps (st k0) t) : Stage st ip ins k0 1 t.apply := by
  obtain ⟨P, p1, p2, p3⟩ := maps_real h (fun p => p = initPriv st ip ins k0)
  refine ⟨[P], rfl, ?_, by simpa using p2, ?_⟩
  · intro k hk
    simp only [List.length_singleton] at hk
    obtain rfl : k = 0 := by omega
    simpa using p1
  · intro cps hc
    obtain ⟨q1, q2, q3, q4⟩ := p3 cps hc
    exact ⟨apply_scalar h.fine hc, ⟨q3, q1, trivial⟩, q2, by simp only [runOut, q4]⟩

/-- The normalisation form D of a text of code points, with the decompositions `t`. -/
def formD (t : Pages) (cps : List Nat) : List Nat := (nfd (tableOf t.data) (textData cps)).map chr

/-- The normalisation form C of a text of code points, with the decompositions `t`. -/
def formC (t : Pages) (cps : List Nat) : List Nat := (nfc (tableOf t.data) nfcTable (textData cps)).map chr

/-- Data that are characters. -/
def Characters (ds : List Datum) : Prop := ∀ d ∈ ds, ∃ n, Scalar n ∧ d = uniDatum n

theorem characters_text {cps : List Nat} (h : ∀ cp ∈ cps, Scalar cp) : Characters (textData cps) := by
  intro d hd
  obtain ⟨n, hn, rfl⟩ := List.mem_map.1 hd
  exact ⟨n, h n hn, rfl⟩

theorem text_characters {ds : List Datum} (h : Characters ds) : (∀ cp ∈ ds.map chr, Scalar cp) ∧ textData (ds.map chr) = ds := by
  constructor
  · intro cp hcp
    obtain ⟨d, hd, rfl⟩ := List.mem_map.1 hcp
    obtain ⟨n, hn, rfl⟩ := h d hd
    rw [uni_chr (scalar_small hn)]; exact hn
  · induction ds with
    | nil => rfl
    | cons d ds ih =>
      obtain ⟨n, hn, rfl⟩ := h d (by simp)
      have := ih fun d hd => h d (by simp [hd])
      simp only [textData, List.map_cons, uni_chr (scalar_small hn)] at this ⊢
      rw [this]

theorem Characters.isText {ds : List Datum} (h : Characters ds) : IsText ds := by
  intro d hd
  obtain ⟨n, hn, rfl⟩ := h d hd
  exact ⟨std_uni (scalar_small hn), by simp [char?, uniDatum]⟩

theorem nfd_characters {t : Pages} (ht : t.fine = true) {ds : List Datum} (h : Characters ds) : Characters (nfd (tableOf t.data) ds) := by
  intro x hx
  rw [nfd_eq, reorder_mem] at hx
  obtain ⟨d, hd, hx⟩ := List.mem_flatMap.1 hx
  have hexp : ∀ y ∈ (tableOf t.data d).getD [d], ∃ n, Scalar n ∧ y = uniDatum n := by
    cases hv : tableOf t.data d with
    | none => simpa using h d hd
    | some v =>
      obtain ⟨r, hr, _, rfl⟩ := data_rule hv
      intro y hy
      obtain ⟨m, hm, rfl⟩ := List.mem_map.1 hy
      exact ⟨m, (fine_rule ht hr).2.1 m hm, rfl⟩
  rw [atoms, decomposed] at hx
  obtain ⟨y, hy, hx⟩ := List.mem_flatMap.1 hx
  split at hx
  · rename_i hs
    obtain ⟨m, hm, rfl⟩ := List.mem_map.1 hx
    refine ⟨m, ?_, rfl⟩
    have := jamo_range (isS_chr hs) hm
    exact ⟨by omega, by omega, by unfold Surrogate; omega⟩
  · simp only [List.mem_singleton] at hx
    subst hx
    exact hexp _ hy

theorem within_chr {a b : Nat} {d : Datum} (h : within a b d = true) : a ≤ chr d ∧ chr d ≤ b := by
  unfold within at h
  split at h
  · rename_i u hu
    rw [chr_some hu]; simpa using h
  · simp at h

theorem nfc_scalar : (Nfc.rules.all fun r => Nat.blt 0 r.2.2.1 && (Nat.blt r.2.2.1 0xD800 || (Nat.blt 0xDFFF r.2.2.1 && Nat.blt r.2.2.1 0x110000))) = true := by
  decide +kernel

theorem full_scalar {s c x : Datum} (h : withHangul nfcTable s c = some x) : ∃ n, Scalar n ∧ x = uniDatum n := by
  unfold withHangul at h
  cases hn : nfcTable s c with
  | some y =>
    rw [hn] at h
    simp only [Option.some.injEq] at h
    subst h
    obtain ⟨r, hr, _, _, e⟩ := nfcTable_rule hn
    refine ⟨_, ?_, e⟩
    have := List.all_eq_true.1 nfc_scalar r hr
    simp only [Bool.and_eq_true, Bool.or_eq_true, Nat.blt_eq] at this
    exact ⟨by omega, by omega, by unfold Surrogate; omega⟩
  | none =>
    rw [hn] at h
    unfold hangulPair at h
    simp only at h
    split at h
    · rename_i k
      simp only [Bool.and_eq_true] at k
      simp only [Option.some.injEq] at h; subst h
      have h1 := within_chr k.1
      have h2 := within_chr k.2
      refine ⟨_, ?_, rfl⟩
      unfold syllable
      exact ⟨by omega, by omega, by unfold Surrogate; omega⟩
    · split at h
      · rename_i k
        simp only [Bool.and_eq_true, beq_iff_eq] at k
        simp only [Option.some.injEq] at h; subst h
        have h1 := within_chr k.1.1
        have h2 := within_chr k.2
        refine ⟨_, ?_, rfl⟩
        exact ⟨by omega, by omega, by unfold Surrogate; omega⟩
      · simp at h

theorem nfc_characters {t : Pages} (ht : t.fine = true) {ds : List Datum} (h : Characters ds) : Characters (nfc (tableOf t.data) nfcTable ds) :=
  composeFrom_all (P := fun d => ∃ n, Scalar n ∧ d = uniDatum n) (fun _ _ _ _ _ h => full_scalar h)
    (by rintro d ⟨n, _, rfl⟩; simp [char?, uniDatum]) _ none (nfd_characters ht h) (by simp)

/-- As data, the forms are those of C67 and C78. -/
theorem form_data {t : Pages} (ht : t.fine = true) {cps : List Nat} (h : ∀ cp ∈ cps, Scalar cp) :
    (∀ cp ∈ formD t cps, Scalar cp) ∧ textData (formD t cps) = nfd (tableOf t.data) (textData cps) ∧
    (∀ cp ∈ formC t cps, Scalar cp) ∧ textData (formC t cps) = nfc (tableOf t.data) nfcTable (textData cps) :=
  have a := text_characters (nfd_characters ht (characters_text h))
  have b := text_characters (nfc_characters ht (characters_text h))
  ⟨a.1, a.2, b.1, b.2⟩

/-- Phases `k`, `k + 1`, `k + 2` are a table of decompositions, `_NF-HANGUL-DECOMPOSITION` and `_NF-ORDER`, the last with an empty queue:
NFD (the table `_NFD`) or NFKD (`_NFKD`), /repo/modules/inter/alias. -/
structure DPhases (st : Nat → Static π) (ip : Nat → Nat → π → π) (ins : Ins π) (k : Nat) (t : Pages) : Prop where
  table : Maps (st k) t
  hangul : ∃ e : Lens π Unit, Only (st (k + 1)) .inter (plain e hangulDecompose)
  order : ∃ e : Lens π (List (Int × Datum)), Only (st (k + 2)) .inter (flushing e Inter.order) ∧ (∀ x, ip (k + 2) 0 x = x) ∧
    e.get ((ins.ph (k + 2)).priv 0) = []
  there : 1 ≤ k ∧ k + 2 ≤ ins.phasen

/-- The same with `_NFC` and `_NF-HANGUL-COMPOSITION` after it: NFC or NFKC. -/
structure CPhases (st : Nat → Static π) (ip : Nat → Nat → π → π) (ins : Ins π) (k : Nat) (t : Pages) : Prop where
  d : DPhases st ip ins k t
  nfc : ∃ e : Lens π Nfc, Only (st (k + 3)) .inter (nfcCodec e nfcTable) ∧ ∀ x, e.get (ip (k + 3) 0 x) = (e.get x).init
  compose : ∃ e : Lens π Hangul, Only (st (k + 4)) .inter (flushing e hangulCompose) ∧ ∀ x, e.get (ip (k + 4) 0 x) = { (e.get x) with status := 0 }
  there : k + 4 ≤ ins.phasen

theorem std_of_fine {t : Pages} (h : t.fine = true) : StdTable (tableOf t.data) := by
  intro d v hv x hx
  obtain ⟨r, hr, _, rfl⟩ := data_rule hv
  obtain ⟨m, hm, rfl⟩ := List.mem_map.1 hx
  exact ⟨std_uni (scalar_small ((fine_rule h hr).2.1 m hm)), by simp [char?, uniDatum]⟩

theorem DPhases.group {k : Nat} {t : Pages} (h : DPhases st ip ins k t) : ∃ junk e, Aside junk ∧ ∀ j (hj : j < (nfdGroup t.data junk e).length),
    Realises (st (j + k)) (fun p => p = initPriv st ip ins (j + k)) (nfdGroup (π := π) t.data junk e)[j] := by
  obtain ⟨⟨hf, junk, hj, hs1⟩, ⟨e2, hs2⟩, ⟨e3, hs3, hi3, hq⟩, h1, h2⟩ := h
  refine ⟨junk, e3, hj, ?_⟩
  intro j hj
  match j, hj with
  | 0, _ => rw [Nat.zero_add]; exact map_real hs1 _
  | 1, _ => rw [Nat.add_comm]; exact decompose_real hs2 _
  | 2, _ => rw [Nat.add_comm]; exact order_real hs3 ((initPriv_get h2 (by omega) e3 id (fun x => by rw [hi3]; rfl)).trans hq)

/-- C79.  NFD and NFKD. -/
theorem C79_formD {k : Nat} {t : Pages} (h : DPhases st ip ins k t) : Stage st ip ins k 3 (formD t) := by
  obtain ⟨junk, e, hj, hr⟩ := h.group
  refine ⟨nfdGroup t.data junk e, rfl, hr, by simp [nfdGroup], ?_⟩
  intro cps hc
  have hf := h.table.fine
  have hd := form_data hf hc
  have hch : ∀ d ∈ textData cps, char? d ≠ none := textData_chars
  have := nfdGroup_run (data_singles t) (std_of_fine hf) hj e hch []
  simp only [List.append_nil] at this
  exact ⟨hd.1, this.1.2 trivial, by rw [this.2.1, hd.2.1]; rfl, by rw [this.2.2.2]; rfl⟩

/-- C79.  NFC and NFKC. -/
theorem C79_formC {k : Nat} {t : Pages} (hT : Tables (tableOf t.data) nfcTable) (h : CPhases st ip ins k t) : Stage st ip ins k 5 (formC t) := by
  obtain ⟨junk, e, hj, hr⟩ := h.d.group
  obtain ⟨e4, hs4, hi4⟩ := h.nfc
  obtain ⟨e5, hs5, hi5⟩ := h.compose
  have hk := h.d.there
  have hl := h.there
  refine ⟨formCGroup t.data junk e, rfl, ?_, by simp [formCGroup, nfdGroup], ?_⟩
  · intro j hj
    match j, hj with
    | 0, _ => exact hr 0 (by simp [nfdGroup])
    | 1, _ => exact hr 1 (by simp [nfdGroup])
    | 2, _ => exact hr 2 (by simp [nfdGroup])
    | 3, _ =>
      have hp := initPriv_get (st := st) (ins := ins) (k := k + 3) (by omega) (by omega) e4 Nfc.init hi4
      rw [Nat.add_comm]
      exact nfc_real hs4 (by rw [hp]; rfl) (by rw [hp]; rfl)
    | 4, _ =>
      have hp := initPriv_get (st := st) (ins := ins) (k := k + 4) (by omega) (by omega) e5 (fun x => { x with status := 0 }) hi5
      rw [Nat.add_comm]
      exact compose_real hs5 (by rw [hp])
  · intro cps hc
    have hf := h.d.table.fine
    have hfd := form_data hf hc
    refine ⟨hfd.2.2.1, ?_⟩
    rw [hfd.2.2.2]
    have := formC_all (data_singles t) hT hj e (characters_text hc).isText
    exact ⟨this.1, this.2.1, this.2.2.2⟩

/-! ### The four forms -/

/-- The normalisation forms of a text, with the tables of /repo/modules/inter/_NFD.txt, _NFKD.txt and _NFC-MAP.txt. -/
def textNFD : List Nat → List Nat := formD Nfd.pages
@[inherit_doc textNFD] def textNFC : List Nat → List Nat := formC Nfd.pages
@[inherit_doc textNFD] def textNFKD : List Nat → List Nat := formD Nfkd.pages
@[inherit_doc textNFD] def textNFKC : List Nat → List Nat := formC Nfkd.pages

theorem nfd_fine : Pages.fine Nfd.pages = true := by decide +kernel

theorem forms_data {cps : List Nat} (h : ∀ cp ∈ cps, Scalar cp) :
    textData (textNFD cps) = nfd nfdTable (textData cps) ∧ textData (textNFC cps) = nfc nfdTable nfcTable (textData cps) ∧
    textData (textNFKD cps) = nfd nfkdTable (textData cps) ∧ textData (textNFKC cps) = nfc nfkdTable nfcTable (textData cps) :=
  have a := form_data nfd_fine h
  have b := form_data nfkd_fine h
  ⟨a.2.1, a.2.2.2, b.2.1, b.2.2.2⟩

theorem forms_scalar {cps : List Nat} (h : ∀ cp ∈ cps, Scalar cp) :
    (∀ cp ∈ textNFD cps, Scalar cp) ∧ (∀ cp ∈ textNFC cps, Scalar cp) ∧ (∀ cp ∈ textNFKD cps, Scalar cp) ∧ ∀ cp ∈ textNFKC cps, Scalar cp :=
  have a := form_data nfd_fine h
  have b := form_data nfkd_fine h
  ⟨a.1, a.2.2.1, b.1, b.2.2.1⟩

/-- C79.  Every form of every form: all sixteen laws. -/
theorem C79_forms {cps : List Nat} (h : ∀ cp ∈ cps, Scalar cp) :
    (textNFD (textNFD cps) = textNFD cps ∧ textNFD (textNFC cps) = textNFD cps ∧
      textNFD (textNFKD cps) = textNFKD cps ∧ textNFD (textNFKC cps) = textNFKD cps) ∧
    (textNFC (textNFD cps) = textNFC cps ∧ textNFC (textNFC cps) = textNFC cps ∧
      textNFC (textNFKD cps) = textNFKC cps ∧ textNFC (textNFKC cps) = textNFKC cps) ∧
    (textNFKD (textNFD cps) = textNFKD cps ∧ textNFKD (textNFC cps) = textNFKD cps ∧
      textNFKD (textNFKD cps) = textNFKD cps ∧ textNFKD (textNFKC cps) = textNFKD cps) ∧
    (textNFKC (textNFD cps) = textNFKC cps ∧ textNFKC (textNFC cps) = textNFKC cps ∧
      textNFKC (textNFKD cps) = textNFKC cps ∧ textNFKC (textNFKC cps) = textNFKC cps) := by
  obtain ⟨d1, d2, d3, d4⟩ := forms_data h
  have ht : IsText (textData cps) := (characters_text h).isText
  have up : ∀ x, textNFD x = (nfd nfdTable (textData x)).map chr := fun _ => rfl
  have uc : ∀ x, textNFC x = (nfc nfdTable nfcTable (textData x)).map chr := fun _ => rfl
  have ukd : ∀ x, textNFKD x = (nfd nfkdTable (textData x)).map chr := fun _ => rfl
  have ukc : ∀ x, textNFKC x = (nfc nfkdTable nfcTable (textData x)).map chr := fun _ => rfl
  have dkc : nfd nfdTable (nfc nfkdTable nfcTable (textData cps)) = nfd nfkdTable (textData cps) := by
    have h1 := nfd_atoms C78_tables.expanded C78_tables.jamoFree (textData cps)
    rw [nfc, nfd_compose C67_tables.full (fun x hx => atom_D (h1 x hx)) (fun x hx => (nfd_std C78_tables.std ht x hx).1), C78_nfd_nfkd]
  refine ⟨⟨?_, ?_, ?_, ?_⟩, ⟨?_, ?_, ?_, ?_⟩, ⟨?_, ?_, ?_, ?_⟩, ⟨?_, ?_, ?_, ?_⟩⟩
  · rw [up (textNFD cps), d1, C67_nfd_idempotent, ← up]
  · rw [up (textNFC cps), d2, C67_nfd_nfc ht, ← up]
  · rw [up (textNFKD cps), d3, C78_nfd_nfkd, ← ukd]
  · rw [up (textNFKC cps), d4, dkc, ← ukd]
  · rw [uc (textNFD cps), d1, nfc, C67_nfd_idempotent, ← nfc, ← uc]
  · rw [uc (textNFC cps), d2, C67_nfc_idempotent ht, ← uc]
  · rw [uc (textNFKD cps), d3, nfc, C78_nfd_nfkd, ← nfc, ← ukc]
  · rw [uc (textNFKC cps), d4, C78_nfc_nfkc ht, ← ukc]
  · rw [ukd (textNFD cps), d1, C78_nfkd_nfd ht, ← ukd]
  · rw [ukd (textNFC cps), d2, (C78_nfkd_nfc ht).1, ← ukd]
  · rw [ukd (textNFKD cps), d3, C78_nfkd_idempotent, ← ukd]
  · rw [ukd (textNFKC cps), d4, C78_nfkd_nfkc ht, ← ukd]
  · rw [ukc (textNFD cps), d1, nfc, C78_nfkd_nfd ht, ← nfc, ← ukc]
  · rw [ukc (textNFC cps), d2, (C78_nfkd_nfc ht).2, ← ukc]
  · rw [ukc (textNFKD cps), d3, nfc, C78_nfkd_idempotent, ← nfc, ← ukc]
  · rw [ukc (textNFKC cps), d4, C78_nfkc_idempotent ht, ← ukc]

/-- C79.  The conversions of the four forms. -/
theorem C79_nfd {k : Nat} (h : DPhases st ip ins k Nfd.pages) : Stage st ip ins k 3 textNFD := C79_formD h
@[inherit_doc C79_nfd] theorem C79_nfkd {k : Nat} (h : DPhases st ip ins k Nfkd.pages) : Stage st ip ins k 3 textNFKD := C79_formD h
@[inherit_doc C79_nfd] theorem C79_nfc {k : Nat} (h : CPhases st ip ins k Nfd.pages) : Stage st ip ins k 5 textNFC := C79_formC C67_tables h
@[inherit_doc C79_nfd] theorem C79_nfkc {k : Nat} (h : CPhases st ip ins k Nfkd.pages) : Stage st ip ins k 5 textNFKC := C79_formC C78_tables h

/-- C79.  What one conversion `a:..:b` writes, `a':..:b'` reads, if `a'` reads what `b` writes: the text goes through both, and no characters get
lost in between.  With `f` = `g` a form, by `C79_forms`, doing it twice is doing it once. -/
theorem C79_twice {st' : Nat → Static π} {ip' : Nat → Nat → π → π} {ins0 : Ins π} {a a' : Source} {b b' : Target} {n n' : Nat}
    {f g : List Nat → List Nat} (hn : ins.phasen = n + 2) (ha : a.Is (st 1) (initPriv st ip ins 1)) (hf : Stage st ip ins 2 n f)
    (hb : b.Is (st (n + 2)))
    (hn' : ins0.phasen = n' + 2) (ha' : a'.Is (st' 1) (initPriv st' ip' ins0 1)) (hg : Stage st' ip' ins0 2 n' g) (hb' : b'.Is (st' (n' + 2)))
    {cps : List Nat} (hc : ∀ cp ∈ cps, a.Has cp ∧ Scalar cp) (hab : ∀ cp ∈ f cps, b.takes cp = true ∧ a'.Has cp ∧ a'.enc cp = b.enc cp)
    (as : List Arg) (l : Arg) (h1 : ∀ x ∈ as, x.flush = false) (h2 : l.flush = true) (h3 : ∀ x ∈ as ++ [l], x.mode ≠ .null)
    (h4 : ((as ++ [l]).filterMap (fun x => x.input)).flatten = cps.flatMap a.enc)
    (as' : List Arg) (l' : Arg) (h1' : ∀ x ∈ as', x.flush = false) (h2' : l'.flush = true) (h3' : ∀ x ∈ as' ++ [l'], x.mode ≠ .null) :
    ∃ ds ins1, Session st (ins.init st ip) (as ++ [l]) ds ins1 ∧ ins1.ierr = ins.ierr ∧ ins1.oerr = ins.oerr ∧
      (((as' ++ [l']).filterMap (fun x => x.input)).flatten = (ds.map (fun d => d.bytes)).flatten ++ ins1.pending.flatten →
        ∃ ds' ins2, Session st' (ins0.init st' ip') (as' ++ [l']) ds' ins2 ∧
          (ds'.map (fun d => d.bytes)).flatten ++ ins2.pending.flatten = ((g (f cps)).filter b'.takes).flatMap b'.enc ∧
          ins2.ierr = ins0.ierr ∧ ins2.oerr = ins0.oerr + ((g (f cps)).filter fun cp => !b'.takes cp).length) := by
  have hs : ∀ cp ∈ f cps, Scalar cp := by
    obtain ⟨_, _, _, _, h⟩ := hf
    exact (h cps fun cp h => (hc cp h).2).1
  obtain ⟨ds, ins1, k1, k2, k3, k4⟩ := C79_convert hn (source_readsAs ha fun cp h => (hc cp h).1) (fun cp h => (hc cp h).2) hf hb as l h1 h2 h3 h4
  have e1 : (f cps).filter b.takes = f cps := List.filter_eq_self.2 fun cp h => (hab cp h).1
  have e2 : ((f cps).filter fun cp => !b.takes cp) = [] := List.filter_eq_nil_iff.2 fun cp h => by simp [(hab cp h).1]
  have e3 : (f cps).flatMap b.enc = (f cps).flatMap a'.enc := by
    have key : ∀ x : List Nat, (∀ cp ∈ x, a'.enc cp = b.enc cp) → x.flatMap b.enc = x.flatMap a'.enc := by
      intro x
      induction x with
      | nil => intro _; rfl
      | cons c x ih => intro h; rw [List.flatMap_cons, List.flatMap_cons, ih fun cp hc => h cp (by simp [hc]), h c (by simp)]
    exact key _ fun cp h => (hab cp h).2.2
  rw [e1, e3] at k2
  rw [e2] at k4
  refine ⟨ds, ins1, k1, k3, k4, ?_⟩
  intro h5
  rw [k2] at h5
  exact C79_convert hn' (source_readsAs ha' fun cp h => (hab cp h).2.1) hs hg hb' as' l' h1' h2' h3' h5

/-! ### The hypotheses can be met -/

/-- The private data of all the phases. -/
structure TextPriv where
  utf8 : Utf8.Priv := .zero
  queue : List (Int × Datum) := []
  nfc : Nfc := {}
  hangul : Hangul := ⟨0, 0⟩

def lensUtf8 : Lens TextPriv Utf8.Priv := ⟨TextPriv.utf8, fun t x => { x with utf8 := t }, fun _ _ => rfl, fun _ => rfl⟩
def lensQueue : Lens TextPriv (List (Int × Datum)) := ⟨TextPriv.queue, fun t x => { x with queue := t }, fun _ _ => rfl, fun _ => rfl⟩
def lensNfc : Lens TextPriv Nfc := ⟨TextPriv.nfc, fun t x => { x with nfc := t }, fun _ _ => rfl, fun _ => rfl⟩
def lensHangul : Lens TextPriv Hangul := ⟨TextPriv.hangul, fun t x => { x with hangul := t }, fun _ _ => rfl, fun _ => rfl⟩

/-- A phase with a compiled file. -/
def compiledPhase (t : Pages) : Static TextPriv := ⟨.inter, fun _ => Verif.MkTable.compiled _ (Verif.MkTable.lines (symbolRules t.data)), 0⟩
/-- The first phase, reading UTF-8. -/
def readUtf8 : Static TextPriv :=
  ⟨.from_, fun j => if j = 0 then trieCodec Ascii.fromRules else anyByte ((Utf8.machine {}).on lensUtf8).conv, 1⟩
/-- The last phase, writing UTF-16LE. -/
def write16 : Static TextPriv := ⟨.to_, fun _ => uniPrefix (encodeConv (Utf16.encode16 true)), 0⟩

/-- The conversion `UTF-8:NFC:UTF-16LE`. -/
def utf8Nfc (k : Nat) : Static TextPriv :=
  match k with
  | 1 => readUtf8
  | 2 => compiledPhase Nfd.pages
  | 3 => onePhase .inter (plain (Lens.unit _) hangulDecompose)
  | 4 => onePhase .inter (flushing lensQueue order)
  | 5 => onePhase .inter (nfcCodec lensNfc nfcTable)
  | 6 => onePhase .inter (flushing lensHangul hangulCompose)
  | _ => write16

/-- The `cbinit`s. -/
def textInits (k _ : Nat) (x : TextPriv) : TextPriv :=
  if k = 5 then { x with nfc := x.nfc.init } else if k = 6 then { x with hangul := { x.hangul with status := 0 } } else x

theorem readUtf8_source (p : Nat → TextPriv) (hp : (p 1).utf8 = .zero) : Source.utf8.Is readUtf8 p := by
  refine .utf8 lensUtf8 ⟨rfl, rfl, ?_, ⟨_, rfl⟩⟩ hp
  refine represents_trie _ ?_
  intro r hr
  obtain ⟨c, _, _, rfl⟩ := fromAscii_mem hr
  simp

theorem nfd_small : Pages.small Nfd.pages = true := by decide +kernel

theorem utf8Nfc_stage : Stage utf8Nfc textInits { ph := fun _ => { priv := fun _ => {} }, phasen := 7 } 2 5 textNFC :=
  C79_nfc ⟨⟨C72_compiled nfd_fine nfd_small rfl rfl rfl, ⟨Lens.unit _, only_one _ _⟩, ⟨lensQueue, only_one _ _, fun _ => rfl, rfl⟩, by decide, by decide⟩,
    ⟨lensNfc, only_one _ _, fun _ => rfl⟩, ⟨lensHangul, only_one _ _, fun _ => rfl⟩, by decide⟩

-- `e` and a combining acute accent, in pieces cut inside the accent: U+00E9.
example : ∃ ds ins', Session utf8Nfc (Ins.init utf8Nfc textInits { ph := fun _ => { priv := fun _ => {} }, phasen := 7 })
      ([⟨some [0x65, 0xCC], false, .file⟩] ++ [⟨some [0x81], true, .file⟩]) ds ins' ∧
    (ds.map (fun d => d.bytes)).flatten ++ ins'.pending.flatten = [0xE9, 0] ∧ ins'.ierr = 0 ∧ ins'.oerr = 0 := by
  have hc : ∀ cp ∈ [0x65, 0x301], Scalar cp := by intro cp h; simp at h; rcases h with rfl | rfl <;> simp [Scalar, Surrogate]
  have e : textNFC [0x65, 0x301] = [0xE9] := by decide +kernel
  obtain ⟨ds, ins', k1, k2, k3, k4⟩ := C79_convert (st := utf8Nfc) (ip := textInits) (ins := { ph := fun _ => { priv := fun _ => {} }, phasen := 7 }) (b := .utf16 true) (cps := [0x65, 0x301]) rfl
    (source_readsAs (a := .utf8) (readUtf8_source _ rfl) hc) hc utf8Nfc_stage (.utf16 true ⟨rfl, rfl, rfl⟩)
    [⟨some [0x65, 0xCC], false, .file⟩] ⟨some [0x81], true, .file⟩ (by simp) rfl (by simp) (by decide)
  rw [e] at k2 k4
  exact ⟨ds, ins', k1, k2, k3, k4⟩

end Verif.Props
