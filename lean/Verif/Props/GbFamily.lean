import Verif.Props.FamilyTable
import Verif.Props.Cp932
import Verif.Props.Gbk
import Verif.Props.IbmMixed
/-
C108: CP936, GBK and GB2312; Shift-JIS and CP932.  (The import of IbmMixed only keeps large checks from running at the same time.)
-/
namespace Verif.Props
open Verif.Spec
open Verif.Engine hiding Datum step
open Charsets

variable {π : Type}

/-- The codes GB2312 has, each byte with its high bit set, as in EUC-CN and GBK. -/
def euc : Chart := gb2312.reads.map fun r => (r.1 + 0x8080, r.2)

theorem euc_run (k : Nat) : ∀ (n : Nat) (vs : List Nat), Chart.run (n + k) vs = (Chart.run n vs).map fun e => (e.1 + k, e.2)
  | _, [] => rfl
  | n, v :: vs => by
    rw [Chart.run, Chart.run, List.map_cons, ← euc_run k (n + 1) vs]
    congr 2
    omega

theorem euc_mem {c u : Nat} (h : (c, u) ∈ gb2312.reads.pairs) : (c + 0x8080, u) ∈ euc.pairs := by
  obtain ⟨q, hq, hr⟩ := List.mem_flatMap.1 h
  refine List.mem_flatMap.2 ⟨(q.1 + 0x8080, q.2), List.mem_map.2 ⟨q, hq, rfl⟩, ?_⟩
  rw [euc_run]
  exact List.mem_map.2 ⟨(c, u), hr, rfl⟩

theorem same_find {a : Chart} {y : Charset} (hy : y.fine = true) {ex : List Nat} (h : Family.sameIn a y.reads ex = true) {c u : Nat}
    (hm : (c, u) ∈ a.pairs) (h0 : u ≠ 0) (hn : c ∉ ex) : y.reads.find c = some u := by
  obtain ⟨q, hq, hr⟩ := List.mem_flatMap.1 hm
  rcases Family.sameRun_all (allRuns_mem h q hq) _ hr with h1 | h1
  · exact Chart.mem_find (Charset.fine_iff hy).reads (build_mem h0 h1)
  · exact absurd h1 hn

/-- The two codes of GB2312 that GBK has other characters for. -/
def eucOther : List Nat := [0xA1A4, 0xA1AA]

/-- The codes of Shift-JIS that CP932 has other characters for. -/
def sjisOther : List Nat := [0x815F, 0x8160, 0x8161, 0x817C, 0x8191, 0x8192, 0x81CA]

theorem gb_same : (Family.sameIn cp936.reads gbk.reads [0x80] && Family.sameIn euc cp936.reads eucOther) = true := by decide +kernel

theorem sjis_same : Family.sameIn shiftJis.reads cp932.reads sjisOther = true := by decide +kernel

theorem cp932_fine : cp932.fine = true ∧ cp932.high = true := by
  have := Cp932.ok
  simp only [Bool.and_eq_true] at this
  exact this.1

/-- C108.  What CP936 reads GBK reads the same way, except for the code 80. -/
theorem C108_gbk : ∀ c u, cp936.char c = some u → c ≠ 0x80 → gbk.char c = some u := by
  have := gb_same
  simp only [Bool.and_eq_true] at this
  intro c u h hc
  exact Family.same_char C76_cp936_partial.fine C76_gbk.fine this.1 c u h (by simpa using hc)

/-- C108.  What GB2312 reads, CP936 and GBK read the same way when both bytes have their high bit set, except for two codes. -/
theorem C108_gb2312 : ∀ c u, gb2312.reads.find c = some u → c + 0x8080 ∉ eucOther →
    cp936.char (c + 0x8080) = some u ∧ gbk.char (c + 0x8080) = some u := by
  have := gb_same
  simp only [Bool.and_eq_true] at this
  intro c u h hc
  have h0 := ((Charset.fine_iff gb2312_fine.1).codes _ (Chart.find_mem h)).2.2.1
  have hk := same_find C76_cp936_partial.fine this.2 (euc_mem (Chart.find_mem h)) (by simp only at h0; omega) hc
  have key : cp936.char (c + 0x8080) = some u := by
    unfold Charset.char
    rw [if_neg (by omega)]
    exact hk
  exact ⟨key, C108_gbk _ _ key (by omega)⟩

/-- C108.  What Shift-JIS reads CP932 reads as the same character, except for seven codes. -/
theorem C108_sjis : ∀ c u, shiftJis.char c = some u → c ∉ sjisOther → cp932.char c = some u :=
  Family.same_char C76_shiftJis_partial.fine cp932_fine.1 sjis_same

/-- C108 violated.  Each of the exceptions is one; and GBK has codes that CP936 does not have. -/
theorem C108_other_violated : (cp936.char 0x80 = some 0x20AC ∧ gbk.char 0x80 = none) ∧ ((gbk.char 0xA140).isSome ∧ cp936.char 0xA140 = none) ∧
    (gb2312.char 0x2124 = some 0x30FB ∧ gbk.char 0xA1A4 = some 0xB7) ∧ (gb2312.char 0x212A = some 0x2015 ∧ gbk.char 0xA1AA = some 0x2014) ∧
    sjisOther.map (fun c => (shiftJis.char c, cp932.char c)) =
      [(some 0x5C, some 0xFF3C), (some 0x301C, some 0xFF5E), (some 0x2016, some 0x2225), (some 0x2212, some 0xFF0D), (some 0xA2, some 0xFFE0),
       (some 0xA3, some 0xFFE1), (some 0xAC, some 0xFFE2)] := by
  decide +kernel

/-- C108.  Two character sets that read the codes of a text alike: the text converted from the one and from the other, cut in whatever ways, to the
same target comes out as the same bytes with the same errors. -/
theorem C108_alike {x y : Charset} (hx : x.fine = true ∧ x.high = true) (hy : y.fine = true ∧ y.high = true)
    {st st' : Nat → Static π} {ip ip' : Nat → Nat → π → π} {ins ins0 : Ins π} {b : Target} (hn : ins.phasen = 2) (hn0 : ins0.phasen = 2)
    (ha : ReadsCharset (st 1) x) (hb : b.Is (st 2)) (ha' : ReadsCharset (st' 1) y) (hb' : b.Is (st' 2)) (cs : List Nat)
    (hc : ∀ c ∈ cs, ∃ u, x.char c = some u ∧ y.char c = some u)
    (as as' : List Arg) (l l' : Arg) (h1 : ∀ z ∈ as, z.flush = false) (h2 : l.flush = true) (h3 : ∀ z ∈ as ++ [l], z.mode ≠ .null)
    (h4 : ((as ++ [l]).filterMap (fun z => z.input)).flatten = codeBytes cs)
    (h1' : ∀ z ∈ as', z.flush = false) (h2' : l'.flush = true) (h3' : ∀ z ∈ as' ++ [l'], z.mode ≠ .null)
    (h4' : ((as' ++ [l']).filterMap (fun z => z.input)).flatten = codeBytes cs) :
    ∃ ds ins' ds' ins0' n, Session st (ins.init st ip) (as ++ [l]) ds ins' ∧ Session st' (ins0.init st' ip') (as' ++ [l']) ds' ins0' ∧
      (ds.map (fun d => d.bytes)).flatten ++ ins'.pending.flatten = (ds'.map (fun d => d.bytes)).flatten ++ ins0'.pending.flatten ∧
      ins'.ierr = ins.ierr ∧ ins0'.ierr = ins0.ierr ∧ ins'.oerr = ins.oerr + n ∧ ins0'.oerr = ins0.oerr + n := by
  have key : ∃ cps : List Nat, cs.map x.char = cps.map some ∧ cs.map y.char = cps.map some := by
    clear h4 h4'
    induction cs with
    | nil => exact ⟨[], rfl, rfl⟩
    | cons c cs ih =>
      obtain ⟨cps, k1, k2⟩ := ih fun d hd => hc d (by simp [hd])
      obtain ⟨u, j1, j2⟩ := hc c (by simp)
      exact ⟨u :: cps, by rw [List.map_cons, List.map_cons, j1, k1], by rw [List.map_cons, List.map_cons, j2, k2]⟩
  obtain ⟨cps, e1, e2⟩ := key
  have hs : ∀ cp ∈ cps, Scalar cp := by
    intro cp hcp
    have : some cp ∈ cs.map x.char := by rw [e1]; exact List.mem_map_of_mem hcp
    obtain ⟨c, _, e⟩ := List.mem_map.1 this
    unfold Charset.char at e
    split at e
    · simp only [Option.some.injEq] at e
      unfold Scalar Surrogate; omega
    · exact ((Charset.fine_iff hx.1).codes _ (Chart.find_mem e)).2.2
  obtain ⟨ds, ins', k1, k2, k3, k4⟩ := C63_reads (mid := []) (ip := ip) hn cps cps (charset_readsAs hx.1 hx.2 ha _ e1) hb (fun k h => absurd h (by simp)) (by simp) hs
    trivial rfl as l h1 h2 h3 h4
  obtain ⟨ds', ins0', m1, m2, m3, m4⟩ := C63_reads (mid := []) (ip := ip') hn0 cps cps (charset_readsAs hy.1 hy.2 ha' _ e2) hb' (fun k h => absurd h (by simp)) (by simp) hs
    trivial rfl as' l' h1' h2' h3' h4'
  exact ⟨ds, ins', ds', ins0', _, k1, m1, k2.trans m2.symm, k3, m3, k4, m4⟩

/-- The case of CP936 and GBK. -/
theorem C108_cp936 {st st' : Nat → Static π} {ip ip' : Nat → Nat → π → π} {ins ins0 : Ins π} {b : Target} (hn : ins.phasen = 2) (hn0 : ins0.phasen = 2)
    (ha : ReadsCharset (st 1) cp936) (hb : b.Is (st 2)) (ha' : ReadsCharset (st' 1) gbk) (hb' : b.Is (st' 2)) (cs : List Nat)
    (hc : ∀ c ∈ cs, (cp936.char c).isSome ∧ c ≠ 0x80)
    (as as' : List Arg) (l l' : Arg) (h1 : ∀ z ∈ as, z.flush = false) (h2 : l.flush = true) (h3 : ∀ z ∈ as ++ [l], z.mode ≠ .null)
    (h4 : ((as ++ [l]).filterMap (fun z => z.input)).flatten = codeBytes cs)
    (h1' : ∀ z ∈ as', z.flush = false) (h2' : l'.flush = true) (h3' : ∀ z ∈ as' ++ [l'], z.mode ≠ .null)
    (h4' : ((as' ++ [l']).filterMap (fun z => z.input)).flatten = codeBytes cs) :
    ∃ ds ins' ds' ins0' n, Session st (ins.init st ip) (as ++ [l]) ds ins' ∧ Session st' (ins0.init st' ip') (as' ++ [l']) ds' ins0' ∧
      (ds.map (fun d => d.bytes)).flatten ++ ins'.pending.flatten = (ds'.map (fun d => d.bytes)).flatten ++ ins0'.pending.flatten ∧
      ins'.ierr = ins.ierr ∧ ins0'.ierr = ins0.ierr ∧ ins'.oerr = ins.oerr + n ∧ ins0'.oerr = ins0.oerr + n := by
  refine C108_alike ⟨C76_cp936_partial.fine, C76_cp936_partial.high⟩ ⟨C76_gbk.fine, C76_gbk.high⟩ hn hn0 ha hb ha' hb' cs ?_ as as' l l' h1 h2 h3 h4 h1' h2' h3' h4'
  intro c h
  obtain ⟨m1, m2⟩ := hc c h
  obtain ⟨u, hu⟩ := Option.isSome_iff_exists.1 m1
  exact ⟨u, hu, C108_gbk c u hu m2⟩

-- Three codes, one of them ASCII.
example : ∀ c ∈ [0x41, 0xD6D0, 0xB9FA], (cp936.char c).isSome ∧ c ≠ 0x80 := by decide +kernel

end Verif.Props
