import Verif.Props.Charset
import Verif.Model.SjisTable
import Verif.Props.ZhTable
/-
C76, C77 for the tables of SHIFT-JIS: everything but the backslash comes back.  (The import of ZhTable only keeps the large checks from running
at the same time.)
-/
namespace Verif.Props
open Verif.Spec
open Verif.Engine hiding Datum step

variable {π : Type}

theorem C76_shiftJis_partial : CharsetOk Charsets.shiftJis [0x5C] := charset_ok (by decide +kernel)

theorem sjis_backslash : Charsets.shiftJis.char 0x5C = some 0x5C ∧ Charsets.shiftJis.code 0x5C = some 0x815F ∧ Charsets.shiftJis.char 0x815F = some 0x5C := by
  decide +kernel

/-- Characters keep their identity: both codes, 5C and 815F, are read as the backslash. -/
theorem C76_shiftJis_keeps : Charsets.shiftJis.Keeps := by
  intro c cp h
  by_cases hc : c = 0x5C
  · subst hc
    rw [sjis_backslash.1] at h
    simp only [Option.some.injEq] at h
    subst h
    exact ⟨_, sjis_backslash.2.1, sjis_backslash.2.2⟩
  · exact ⟨c, C76_shiftJis_partial.exact c cp (by simpa using hc) h, h⟩

theorem chars_some {x : Charset} : ∀ {cs : List Nat}, (∀ c ∈ cs, (x.char c).isSome) → cs.map x.char = (cs.filterMap x.char).map some
  | [], _ => rfl
  | c :: cs, h => by
    obtain ⟨cp, hc⟩ := Option.isSome_iff_exists.1 (h c (by simp))
    rw [List.map_cons, List.filterMap_cons_some hc, List.map_cons, ← chars_some fun c hm => h c (by simp [hm]), hc]

/-- C77.  `SHIFT-JIS:SHIFT-JIS` turns every backslash (5C) of every text into 81 5F, and leaves the rest as it is. -/
theorem C77_shiftJis_violated {st : Nat → Static π} {ip : Nat → Nat → π → π} {ins : Ins π} (hn : ins.phasen = 2)
    (ha : ReadsCharset (st 1) Charsets.shiftJis) (hb : WritesCharset (st 2) Charsets.shiftJis)
    (cs : List Nat) (hcs : ∀ c ∈ cs, (Charsets.shiftJis.char c).isSome)
    (as : List Arg) (l : Arg) (h1 : ∀ y ∈ as, y.flush = false) (h2 : l.flush = true) (h3 : ∀ y ∈ as ++ [l], y.mode ≠ .null)
    (h4 : ((as ++ [l]).filterMap (fun y => y.input)).flatten = codeBytes cs) :
    ∃ ds ins', Session st (ins.init st ip) (as ++ [l]) ds ins' ∧
      (ds.map (fun d => d.bytes)).flatten ++ ins'.pending.flatten = codeBytes (cs.map fun c => if c = 0x5C then 0x815F else c) ∧
      ins'.ierr = ins.ierr ∧ ins'.oerr = ins.oerr := by
  have hok := C76_shiftJis_partial
  obtain ⟨ds, ins', k1, k2, k3, k4⟩ := C76_again hok.fine hok.high hok.fine hn ha hb cs _ (chars_some hcs) as l h1 h2 h3 h4
  have key : ∀ {cs : List Nat}, (∀ c ∈ cs, (Charsets.shiftJis.char c).isSome) →
      (cs.filterMap Charsets.shiftJis.char).filterMap Charsets.shiftJis.code = cs.map (fun c => if c = 0x5C then 0x815F else c) ∧
      ((cs.filterMap Charsets.shiftJis.char).filter fun cp => (Charsets.shiftJis.code cp).isNone) = [] := by
    intro cs
    induction cs with
    | nil => intro _; exact ⟨rfl, rfl⟩
    | cons c cs ih =>
      intro h
      obtain ⟨i1, i2⟩ := ih fun c hc => h c (by simp [hc])
      obtain ⟨cp, hc⟩ := Option.isSome_iff_exists.1 (h c (by simp))
      have e : Charsets.shiftJis.code cp = some (if c = 0x5C then 0x815F else c) := by
        by_cases h5 : c = 0x5C
        · subst h5
          rw [sjis_backslash.1] at hc
          simp only [Option.some.injEq] at hc
          rw [← hc, if_pos rfl]
          exact sjis_backslash.2.1
        · rw [if_neg h5]
          exact hok.exact c cp (by simpa using h5) hc
      rw [List.filterMap_cons_some hc, List.filterMap_cons_some e, i1, List.filter_cons_of_neg (by simp [e]), i2]
      exact ⟨rfl, rfl⟩
  obtain ⟨e1, e2⟩ := key hcs
  exact ⟨ds, ins', k1, by rw [k2, e1], k3, by rw [k4, e2]; rfl⟩

-- `C:\` followed by U+3042 (82 A0): 43 3A 5C 82 A0 comes out as 43 3A 81 5F 82 A0.
example : ∃ ds ins', Session (charsetConv Charsets.shiftJis Charsets.shiftJis)
      (({ ph := fun _ => { priv := fun _ => () }, phasen := 2 } : Ins Unit).init (charsetConv Charsets.shiftJis Charsets.shiftJis) (fun _ _ t => t))
      ([⟨some [0x43, 0x3A, 0x5C, 0x82], false, .file⟩] ++ [⟨some [0xA0], true, .file⟩]) ds ins' ∧
    (ds.map (fun d => d.bytes)).flatten ++ ins'.pending.flatten = [0x43, 0x3A, 0x81, 0x5F, 0x82, 0xA0] ∧ ins'.ierr = 0 ∧ ins'.oerr = 0 := by
  have hok := C76_shiftJis_partial
  obtain ⟨ds, ins', k1, k2, k3, k4⟩ := C77_shiftJis_violated (st := charsetConv Charsets.shiftJis Charsets.shiftJis) (ip := fun _ _ t => t)
    (ins := { ph := fun _ => { priv := fun _ => () }, phasen := 2 }) rfl (charsetConv_reads hok.fine hok.small) (charsetConv_writes hok.fine hok.small)
    [0x43, 0x3A, 0x5C, 0x82A0] (by decide +kernel) [⟨some [0x43, 0x3A, 0x5C, 0x82], false, .file⟩] ⟨some [0xA0], true, .file⟩ (by simp) rfl (by simp)
    (by simp [codeBytes, be1, be2])
  exact ⟨ds, ins', k1, by rw [k2]; simp [codeBytes, be1, be2], k3, k4⟩

end Verif.Props
