import Verif.Props.Gbk
import Verif.Model.Gb2312Table
/-
C77 for the tables of GB2312: the codes of the tables are 7-bit, and `GB2312` is `ASCII,_GB2312`, so no code of the table is ever read.
-/
namespace Verif.Props
open Verif.Spec
open Verif.Engine hiding Datum step

variable {π : Type}

theorem gb2312_fine : Charsets.gb2312.fine = true ∧ Charset.small Charsets.gb2312 = true := by
  have : (Charsets.gb2312.fine && Charset.small Charsets.gb2312) = true := by decide +kernel
  simpa using this

/-- Every code of the file for writing consists of two bytes below 80 (and above 00). -/
theorem gb2312_low : ∀ cp c, Charsets.gb2312.code cp = some c → ∀ b ∈ beBytes c, 1 ≤ b ∧ b < 0x80 := by
  have key : (Charsets.gb2312.writes.all fun r => r.2.all fun c => Nat.blt c 0x8000 && Nat.blt 0xFF c && Nat.blt (c % 0x100) 0x80 && Nat.blt 0 (c % 0x100)) = true := by
    decide +kernel
  intro cp c hc b hb
  unfold Charset.code at hc
  cases hw : Charsets.gb2312.writes.find cp with
  | some c' =>
    simp only [hw, Option.some.injEq] at hc
    subst hc
    obtain ⟨r, hr, hm⟩ := List.mem_flatMap.1 (Chart.find_mem hw)
    have h1 := List.all_eq_true.1 key r hr
    have h2 := List.all_eq_true.1 h1 c' (by
      have hg := (Chart.mem_run.1 hm).2
      exact List.mem_of_getElem? hg)
    simp only [Bool.and_eq_true, Nat.blt_eq] at h2
    obtain ⟨⟨⟨h3, h4⟩, h5⟩, h6⟩ := h2
    rw [be2 (by omega) (by omega)] at hb
    simp at hb
    omega
  | none =>
    simp only [hw] at hc
    split at hc
    · rename_i h
      simp only [Option.some.injEq] at hc
      subst hc
      rw [be1 (by omega)] at hb
      simp at hb
      omega
    · split at hc
      · simp only [Option.some.injEq] at hc
        subst hc
        rw [be1 (by omega)] at hb
        simp at hb
        omega
      · simp at hc

/-- `ASCII,_X` reads a text of bytes 01 .. 7F as ASCII, whatever the table `_X` has. -/
theorem low_readsAs {s : Static π} {x : Charset} (hx : x.fine = true) (h0 : s.type = .from_) (h1 : s.codecn = 1)
    (ha : Represents (s.codecs 0) Ascii.fromRules) (hb : Represents (s.codecs 1) x.fromRules) (p : Nat → π)
    {cps : List Nat} (hc : ∀ cp ∈ cps, 1 ≤ cp ∧ cp < 0x80) : ReadsAs s p cps cps := by
  obtain ⟨D, d1, _, d3⟩ := tables_real (Rs := fun j => if j = 0 then Ascii.fromRules else x.fromRules) h0 (by
    intro j hj
    obtain rfl | rfl : j = 0 ∨ j = 1 := by omega
    · exact ⟨ha, fromAscii_prefixFree, ascii_data⟩
    · exact ⟨hb, fromRules_prefixFree (Charset.fine_iff hx), fromRules_data⟩) p
  have e : (cps.map fun cp => ([cp], cp)).flatMap (fun c => c.1) = cps := by
    rw [List.flatMap_map]
    exact List.flatMap_singleton' cps
  refine ⟨fun b hb => by have := hc b hb; omega, D, d1, ?_⟩
  intro ds hds
  have := d3 (cps.map fun cp => ([cp], cp)) (by
    intro c hm
    obtain ⟨cp, hq, rfl⟩ := List.mem_map.1 hm
    obtain ⟨k1, k2⟩ := hc cp hq
    refine ⟨fun b hb => by simp at hb; omega, 0, cp, [], by omega, rfl, ?_, fun i hi => absurd hi (by omega)⟩
    rw [uniDatum, be1 (by omega)]
    exact (fromAscii_lookup _ _).2 ⟨cp, k1, k2, rfl, rfl⟩) ds (by rw [hds, e])
  rw [List.map_map] at this
  have e2 : List.map (Prod.snd ∘ fun cp : Nat => ([cp], cp)) cps = cps := List.map_id' cps
  rw [e2] at this
  exact this

/-- C77.  What is written as GB2312, read as GB2312: `a:GB2312` gives bytes `T` below 80, and `GB2312:b` reads every byte of `T` as an ASCII
character of its own.  So a character that is not ASCII never comes back. -/
theorem C77_gb2312_violated {st st' : Nat → Static π} {ip ip' : Nat → Nat → π → π} {ins ins0 : Ins π} {a : Source} {b : Target} (hn : ins.phasen = 2)
    (hn' : ins0.phasen = 2) (ha : a.Is (st 1) (initPriv st ip ins 1)) (hb : WritesCharset (st 2) Charsets.gb2312)
    (h0 : (st' 1).type = .from_) (hc : (st' 1).codecn = 1) (ha' : Represents ((st' 1).codecs 0) Ascii.fromRules)
    (hg : Represents ((st' 1).codecs 1) Charsets.gb2312.fromRules) (hb' : b.Is (st' 2))
    (cps : List Nat) (hcps : ∀ cp ∈ cps, a.Has cp ∧ Scalar cp)
    (as : List Arg) (l : Arg) (h1 : ∀ y ∈ as, y.flush = false) (h2 : l.flush = true) (h3 : ∀ y ∈ as ++ [l], y.mode ≠ .null)
    (h4 : ((as ++ [l]).filterMap (fun y => y.input)).flatten = cps.flatMap a.enc) :
    ∃ ds ins' T, Session st (ins.init st ip) (as ++ [l]) ds ins' ∧
      (ds.map (fun d => d.bytes)).flatten ++ ins'.pending.flatten = T ∧ T = codeBytes (cps.filterMap Charsets.gb2312.code) ∧
      (∀ t ∈ T, 1 ≤ t ∧ t < 0x80) ∧
      ∀ (as' : List Arg) (l' : Arg), (∀ y ∈ as', y.flush = false) → l'.flush = true → (∀ y ∈ as' ++ [l'], y.mode ≠ .null) →
        ((as' ++ [l']).filterMap (fun y => y.input)).flatten = T →
        ∃ ds' ins'', Session st' (ins0.init st' ip') (as' ++ [l']) ds' ins'' ∧
          (ds'.map (fun d => d.bytes)).flatten ++ ins''.pending.flatten = (T.filter b.takes).flatMap b.enc ∧ ins''.ierr = ins0.ierr := by
  obtain ⟨ds, ins', k1, k2, _, _⟩ := C76_writes gb2312_fine.1 hn ha hb cps hcps as l h1 h2 h3 h4
  have hT : ∀ t ∈ codeBytes (cps.filterMap Charsets.gb2312.code), 1 ≤ t ∧ t < 0x80 := by
    intro t ht
    obtain ⟨c, hc, hm⟩ := List.mem_flatMap.1 ht
    obtain ⟨cp, _, e⟩ := List.mem_filterMap.1 hc
    exact gb2312_low cp c e t hm
  refine ⟨ds, ins', _, k1, k2, rfl, hT, ?_⟩
  intro as' l' g1 g2 g3 g4
  obtain ⟨ds', ins'', m1, m2, m3, _⟩ := C63_reads (mid := []) hn' _ _ (low_readsAs gb2312_fine.1 h0 hc ha' hg _ hT) hb' (fun k h => absurd h (by simp))
    (by simp) (fun t ht => by have := hT t ht; unfold Scalar Surrogate; omega) trivial rfl as' l' g1 g2 g3 g4
  exact ⟨ds', ins'', m1, m2, m3⟩

-- U+4E2D is written as 56 50, which is read as `VP`.
example : Charsets.gb2312.code 0x4E2D = some 0x5650 ∧ Charsets.gb2312.reads.find 0x5650 = some 0x4E2D ∧ codeBytes [0x5650] = [0x56, 0x50] :=
  ⟨by decide +kernel, by decide +kernel, by simp [codeBytes, be2]⟩

end Verif.Props
