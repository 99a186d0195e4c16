import Verif.Props.Big5
import Verif.Props.Jis
import Verif.Model.JisTables
/-
C81 for the tables of /repo.  (The import of Big5 keeps the large checks from running at the same time.)
-/
namespace Verif.Props
open Verif.Spec
open Verif.Engine hiding Datum step

variable {π : Type}

/-- /repo/modules/from/_JIS0201.txt, _JIS0208.txt, _JIS0212.txt -/
def jisTables : JisTables := ⟨Charsets.jis0201, Charsets.jis0208, Charsets.jis0212⟩

theorem jisTables_fine : JisTables.fine jisTables = true := by decide +kernel

theorem jisTables_small : (Charset.small Charsets.jis0201 && Charset.small Charsets.jis0208 && Charset.small Charsets.jis0212) = true := by decide +kernel

theorem jis_fines : Charsets.jis0201.fine = true ∧ Charsets.jis0208.fine = true ∧ Charsets.jis0212.fine = true := by
  have h := jisTables_fine
  unfold JisTables.fine jisWide jisNarrow jisTables at h
  simp only [Bool.and_eq_true] at h
  exact ⟨h.1.1.1, h.1.2.1, h.2.1⟩

/-- The compiled files. -/
def jisCodecs : Jis.Codecs where
  jis0201 := Verif.MkTable.compiled _ (Verif.MkTable.lines Charsets.jis0201.fromRules)
  jis0208 := Verif.MkTable.compiled _ (Verif.MkTable.lines Charsets.jis0208.fromRules)
  jis0212 := Verif.MkTable.compiled _ (Verif.MkTable.lines Charsets.jis0212.fromRules)

/-- The phase `JIS` with the compiled files. -/
def jisPhase : Static Jis.Priv := ⟨.from_, fun j => if j = 0 then Jis.codec jisCodecs else trieCodec Ascii.fromRules, 1⟩

theorem jisPhase_reads : ReadsJis jisPhase (Lens.self _) jisCodecs jisTables where
  isFrom := rfl
  two := rfl
  codec := ⟨none, rfl⟩
  ascii := trieAscii
  jis0201 := (C76_compiled jis_fines.1 (by have := jisTables_small; simp only [Bool.and_eq_true] at this; exact this.1.1)).1
  jis0208 := (C76_compiled jis_fines.2.1 (by have := jisTables_small; simp only [Bool.and_eq_true] at this; exact this.1.2)).1
  jis0212 := (C76_compiled jis_fines.2.2 (by have := jisTables_small; simp only [Bool.and_eq_true] at this; exact this.2)).1

-- ESC $ B, 亜 唖, ESC ( J, a yen sign, ESC ( B, newline
example : jisTables.chars .ascii [.switch .x0208 [0x1B, 0x24, 0x42], .code 0x3021, .code 0x3022, .switch .x0201 [0x1B, 0x28, 0x4A], .code 0x5C, .code 0x41,
    .switch .ascii [0x1B, 0x28, 0x42], .code 0x0A] = some [0x4E9C, 0x5516, 0xA5, 0x41, 0x0A] := by decide +kernel

/-- A yen sign of 0201, ESC $ @ instead of ESC $ B and so on are all read; ESC ( $ D 30 21 is U+4E02. -/
example : jisTables.chars .ascii [.switch .x0212 [0x1B, 0x28, 0x24, 0x44], .code 0x3021] = some [0x4E02] := by decide +kernel

/-- C81, not so: the katakana of JIS X 0201 in 7 bits. -/
theorem C81_katakana_table (w : List Nat) (hw : ∀ c ∈ w, 0x21 ≤ c ∧ c ≤ 0x5F ∧ c ≠ 0x5C) (c : Nat) (hc : c ∈ w) :
    0x21 ≤ c ∧ c ≤ 0x5F ∧ jisTables.x0201.reads.find c = none := by
  have h : ∀ c, 0x21 ≤ c → c ≤ 0x5F → c ≠ 0x5C → jisTables.x0201.reads.find c = none := by
    have : ((List.range 0x60).all fun c => Nat.blt c 0x21 || Nat.beq c 0x5C || (jisTables.x0201.reads.find c).isNone) = true := by decide +kernel
    intro c h1 h2 h3
    have := List.all_eq_true.1 this c (by simp; omega)
    simp only [Bool.or_eq_true, Nat.blt_eq, Nat.beq_eq, Option.isNone_iff_eq_none] at this
    rcases this with (h | h) | h
    · omega
    · exact absurd h h3
    · exact h
  obtain ⟨k1, k2, k3⟩ := hw c hc
  exact ⟨k1, k2, h c k1 k2 k3⟩

/-! ### Written as JIS -/

/-- Every code of /repo/modules/to/_JIS0212.txt consists of two bytes below 80 (and above 20). -/
theorem jis0212_low : ∀ cp c, Charsets.jis0212.code cp = some c → ∀ b ∈ beBytes c, 1 ≤ b ∧ b < 0x80 ∧ (cp ≠ 0x1B → b ≠ 0x1B) := by
  have key : (Charsets.jis0212.writes.all fun r => r.2.all fun c => Nat.blt c 0x8000 && Nat.blt 0x20FF c && Nat.blt (c % 0x100) 0x80 && Nat.blt 0x20 (c % 0x100)) = true := by
    decide +kernel
  intro cp c hc b hb
  unfold Charset.code at hc
  cases hw : Charsets.jis0212.writes.find cp with
  | some c' =>
    simp only [hw, Option.some.injEq] at hc
    subst hc
    obtain ⟨r, hr, hm⟩ := List.mem_flatMap.1 (Chart.find_mem hw)
    have h1 := List.all_eq_true.1 key r hr
    have h2 := List.all_eq_true.1 h1 c' (by
      have hg := (Chart.mem_run.1 hm).2
      exact List.mem_of_getElem? hg)
    simp only [Bool.and_eq_true, Nat.blt_eq] at h2
    obtain ⟨⟨⟨h3, h4⟩, h5⟩, h6⟩ := h2
    rw [be2 (by omega) (by omega)] at hb
    simp at hb
    omega
  | none =>
    simp only [hw] at hc
    split at hc
    · rename_i h
      simp only [Option.some.injEq] at hc
      subst hc
      rw [be1 (by omega)] at hb
      simp at hb
      omega
    · split at hc
      · simp only [Option.some.injEq] at hc
        subst hc
        rw [be1 (by omega)] at hb
        simp at hb
        omega
      · simp at hc

/-- What is written as `JIS` (`_JIS0212,ASCII`): no hiragana, katakana or kanji of JIS X 0208. -/
theorem C81_writes_violated : Charsets.jis0212.code 0x3042 = none ∧ Charsets.jis0212.code 0x30A2 = none ∧ Charsets.jis0212.code 0x4E9C = none ∧
    jisTables.chars .ascii [.switch .x0208 [0x1B, 0x24, 0x42], .code 0x2422, .code 0x2522, .code 0x3021] = some [0x3042, 0x30A2, 0x4E9C] := by
  decide +kernel

/-- C81, not so: what `a:JIS` writes has no escape sequences; `JIS:b` reads every byte of it as an ASCII character of its own.  So a character that is
not ASCII never comes back. -/
theorem C81_back_violated {st st' : Nat → Static π} {ip ip' : Nat → Nat → π → π} {ins ins0 : Ins π} {a : Source} {b : Target} {e : Lens π Jis.Priv}
    {C : Jis.Codecs} (hn : ins.phasen = 2)
    (hn' : ins0.phasen = 2) (ha : a.Is (st 1) (initPriv st ip ins 1)) (hb : WritesCharset (st 2) Charsets.jis0212)
    (hr : ReadsJis (st' 1) e C jisTables) (hp : e.get (initPriv st' ip' ins0 1 0) = .fresh) (hb' : b.Is (st' 2))
    (cps : List Nat) (hcps : ∀ cp ∈ cps, a.Has cp ∧ Scalar cp ∧ cp ≠ 0x1B)
    (as : List Arg) (l : Arg) (h1 : ∀ y ∈ as, y.flush = false) (h2 : l.flush = true) (h3 : ∀ y ∈ as ++ [l], y.mode ≠ .null)
    (h4 : ((as ++ [l]).filterMap (fun y => y.input)).flatten = cps.flatMap a.enc) :
    ∃ ds ins' T, Session st (ins.init st ip) (as ++ [l]) ds ins' ∧
      (ds.map (fun d => d.bytes)).flatten ++ ins'.pending.flatten = T ∧ T = codeBytes (cps.filterMap Charsets.jis0212.code) ∧
      (∀ t ∈ T, 1 ≤ t ∧ t < 0x80) ∧
      ∀ (as' : List Arg) (l' : Arg), (∀ y ∈ as', y.flush = false) → l'.flush = true → (∀ y ∈ as' ++ [l'], y.mode ≠ .null) →
        ((as' ++ [l']).filterMap (fun y => y.input)).flatten = T →
        ∃ ds' ins'', Session st' (ins0.init st' ip') (as' ++ [l']) ds' ins'' ∧
          (ds'.map (fun d => d.bytes)).flatten ++ ins''.pending.flatten = (T.filter b.takes).flatMap b.enc ∧ ins''.ierr = ins0.ierr := by
  obtain ⟨ds, ins', k1, k2, _, _⟩ := C76_writes jis_fines.2.2 hn ha hb cps (fun cp h => ⟨(hcps cp h).1, (hcps cp h).2.1⟩) as l h1 h2 h3 h4
  have hT : ∀ t ∈ codeBytes (cps.filterMap Charsets.jis0212.code), 1 ≤ t ∧ t < 0x80 ∧ t ≠ 0x1B := by
    intro t ht
    obtain ⟨c, hc, hm⟩ := List.mem_flatMap.1 ht
    obtain ⟨cp, hcp, e⟩ := List.mem_filterMap.1 hc
    obtain ⟨q1, q2, q3⟩ := jis0212_low cp c e t hm
    exact ⟨q1, q2, q3 (hcps cp hcp).2.2⟩
  refine ⟨ds, ins', _, k1, k2, rfl, fun t ht => ⟨(hT t ht).1, (hT t ht).2.1⟩, ?_⟩
  intro as' l' g1 g2 g3 g4
  generalize hW : codeBytes (cps.filterMap Charsets.jis0212.code) = W at hT g4
  have hc : jisTables.chars .ascii (W.map .code) = some W := by
    clear hW g4
    induction W with
    | nil => rfl
    | cons c w ih =>
      obtain ⟨q1, q2, q3⟩ := hT c (by simp)
      have : jisTables.char .ascii c = some c := by
        simp only [JisTables.char]
        rw [if_pos ⟨q1, q2, q3⟩]
      rw [List.map_cons, JisTables.chars, this, ih (fun c hc => hT c (by simp [hc]))]
      rfl
  have hby : ∀ c ∈ W, (JisItem.code c).bytes = [c] := by
    intro c hc
    have := hT c hc
    exact be1 (by omega)
  have e1 : (W.map JisItem.code).flatMap JisItem.bytes = W := by
    rw [List.flatMap_map, List.flatMap_def, List.map_congr_left hby, ← List.flatMap_def]
    exact List.flatMap_singleton' W
  obtain ⟨ds', ins'', m1, m2, m3, _⟩ := C81_reads jisTables_fine hn' hr hp hb' _ _ hc as' l' g1 g2 g3 (by rw [e1]; exact g4)
  exact ⟨ds', ins'', m1, m2, m3⟩

-- U+4E02 is written as 30 21, which is read as `0!`.
example : Charsets.jis0212.code 0x4E02 = some 0x3021 ∧ codeBytes [0x3021] = [0x30, 0x21] := ⟨by decide +kernel, by simp [codeBytes, be2]⟩

/-- `JIS:UTF-16LE` with the compiled files, a new instance. -/
def jisTo16 (k : Nat) : Static Jis.Priv := if k = 1 then jisPhase else ⟨.to_, fun _ => uniPrefix (encodeConv (Utf16.encode16 true)), 0⟩

example (is : List JisItem) (cps : List Nat) (hc : jisTables.chars .ascii is = some cps) {ins : Ins Jis.Priv} (hn : ins.phasen = 2)
    (hp : initPriv jisTo16 (fun _ _ x => x) ins 1 0 = .fresh) (as : List Arg) (l : Arg) (h1 : ∀ y ∈ as, y.flush = false) (h2 : l.flush = true)
    (h3 : ∀ y ∈ as ++ [l], y.mode ≠ .null) (h4 : ((as ++ [l]).filterMap (fun y => y.input)).flatten = is.flatMap JisItem.bytes) :
    ∃ ds ins', Session jisTo16 (ins.init jisTo16 (fun _ _ x => x)) (as ++ [l]) ds ins' ∧
      (ds.map (fun d => d.bytes)).flatten ++ ins'.pending.flatten = (cps.filter (Target.utf16 true).takes).flatMap (Target.utf16 true).enc ∧
      ins'.ierr = ins.ierr ∧ ins'.oerr = ins.oerr + (cps.filter fun cp => !(Target.utf16 true).takes cp).length :=
  C81_reads (st := jisTo16) (ip := fun _ _ x => x) (e := Lens.self _) (b := .utf16 true) jisTables_fine hn jisPhase_reads hp (.utf16 true ⟨rfl, rfl, rfl⟩) is cps hc as l h1 h2 h3 h4

end Verif.Props
