import Verif.Props.Lex
/-
C105: character sets that are read from several files, one behind the other.
-/
namespace Verif.Props
open Verif.Spec
open Verif.Engine hiding Datum step

variable {π : Type}

/-- What a code stands for when several files are tried in turn: ASCII (without NUL), or what the first file that has the code says. -/
def charIn (xs : List Charset) (c : Nat) : Option Nat := if 1 ≤ c ∧ c < 0x80 then some c else xs.findSome? fun x => x.reads.find c

/-- The phase reads the files in turn: `ASCII,_X,_Y,..` (/repo/modules/from/alias). -/
structure ReadsFamily (s : Static π) (xs : List Charset) : Prop where
  isFrom : s.type = .from_
  count : s.codecn = xs.length
  ascii : Represents (s.codecs 0) Ascii.fromRules
  tables : ∀ j (h : j < xs.length), Represents (s.codecs (j + 1)) xs[j].fromRules

/-- All codes have two bytes, the first of them no ASCII. -/
def Charset.wide (x : Charset) : Bool := x.reads.all fun r => Nat.ble 0x8000 r.1

namespace Family

theorem wide_pairs {x : Charset} (h : Charset.wide x = true) {r : Nat × Nat} (hr : r ∈ x.reads.pairs) : 0x8000 ≤ r.1 := by
  obtain ⟨q, hq, hr⟩ := List.mem_flatMap.1 hr
  have := List.all_eq_true.1 h q hq
  simp only [Nat.ble_eq] at this
  have := Chart.run_lt hr
  omega

/-- The rules of the codec `j`. -/
def rules (xs : List Charset) (j : Nat) : Rules Nat (List Datum) :=
  match j with
  | 0 => Ascii.fromRules
  | j + 1 => match xs[j]? with
    | some x => x.fromRules
    | none => []

/-- Codes as pieces. -/
theorem pieces {xs : List Charset} (hx : ∀ x ∈ xs, x.Fine ∧ Charset.wide x = true) {cs cps : List Nat} (h : cs.map (charIn xs) = cps.map some) :
    Pieces (rules xs) xs.length (codeBytes cs) (cs.zipWith (fun c u => (beBytes c, uniDatum u)) cps) ∧ IsBytes (codeBytes cs) := by
  induction cs generalizing cps with
  | nil =>
    cases cps with
    | nil => exact ⟨.nil, by intro b hb; simp [codeBytes] at hb⟩
    | cons d ds => simp at h
  | cons c cs ih =>
    cases cps with
    | nil => simp at h
    | cons u cps =>
      simp only [List.map_cons, List.cons.injEq] at h
      obtain ⟨i1, i2⟩ := ih h.2
      have e : codeBytes (c :: cs) = beBytes c ++ codeBytes cs := rfl
      rw [e]
      have hd := h.1
      unfold charIn at hd
      by_cases hr : 1 ≤ c ∧ c < 0x80
      · rw [if_pos hr] at hd
        simp only [Option.some.injEq] at hd
        have e1 : beBytes c = [c] := be1 (by omega)
        refine ⟨.cons (j := 0) (by omega) (by rw [e1]; simp) ?_ (fun i hi => absurd hi (by omega)) i1, ?_⟩
        · show lookup Ascii.fromRules _ = _
          rw [e1, ← hd, uniDatum, be1 (by omega)]
          exact (fromAscii_lookup _ _).2 ⟨c, hr.1, hr.2, rfl, rfl⟩
        · rw [e1]
          intro b hb
          rcases List.mem_append.1 hb with hb | hb
          · simp at hb; omega
          · exact i2 b hb
      · rw [if_neg hr] at hd
        obtain ⟨l1, x, l2, ex, hf, hn⟩ := List.findSome?_eq_some_iff.1 hd
        have hm := Chart.find_mem hf
        obtain ⟨xf, xw⟩ := hx x (by rw [ex]; simp)
        have hh := wide_pairs xw hm
        have h2 := (xf.codes _ hm).2.1
        simp only at hh h2
        obtain ⟨m1, m2⟩ := code_bytes h2
        have hb2 : beBytes c = [c / 256, c % 256] := be2 (by omega) h2
        refine ⟨.cons (j := l1.length + 1) (by rw [ex]; simp) (by rw [hb2]; simp) ?_ ?_ i1, ?_⟩
        · have : xs[l1.length]? = some x := by rw [ex]; simp
          simp only [rules, this]
          rw [fromRules_lookup xf h2, hf]
          rfl
        · intro i hi r hr' hp
          match i with
          | 0 =>
            obtain ⟨q, q1, q2, rfl⟩ := fromAscii_mem hr'
            rw [hb2] at hp
            obtain ⟨t, ht⟩ := hp
            simp at ht
            omega
          | i + 1 =>
            have hi1 : i < l1.length := by omega
            have : xs[i]? = some l1[i] := by rw [ex, List.getElem?_append_left hi1, List.getElem?_eq_getElem hi1]
            simp only [rules, this] at hr'
            obtain ⟨a, ha, rfl⟩ := List.mem_map.1 hr'
            have hli := List.getElem_mem hi1
            obtain ⟨yf, yw⟩ := hx l1[i] (by rw [ex]; exact List.mem_append_left _ hli)
            have k1 := wide_pairs yw ha
            have k2 := (yf.codes _ ha).2.1
            have k3 : beBytes a.1 = [a.1 / 256, a.1 % 256] := be2 (by omega) k2
            simp only [k3, hb2] at hp
            obtain ⟨t, ht⟩ := hp
            simp only [List.cons_append, List.nil_append, List.cons.injEq] at ht
            have : a.1 = c := by omega
            have h3 := Chart.mem_find yf.reads ha
            have h4 := hn _ hli
            rw [this, h4] at h3
            exact absurd h3 (by simp)
        · intro b hb
          rcases List.mem_append.1 hb with hb | hb
          · exact m1 b hb
          · exact i2 b hb

theorem pieces_snd {f : Nat → List Nat} : ∀ {cs cps : List Nat}, cs.length = cps.length →
    (cs.zipWith (fun c u => (f c, uniDatum u)) cps).map Prod.snd = textData cps
  | [], [], _ => rfl
  | c :: cs, u :: cps, h => by
    simp only [List.zipWith_cons_cons, List.map_cons, textData]
    rw [pieces_snd (by simpa using h)]
    rfl
  | [], _ :: _, h => by simp at h
  | _ :: _, [], h => by simp at h

end Family

/-- C105.  Codes of several files, in any order and cut in any way, are read as the characters the first file that has them says: so everything
behind takes them as any other text (C63, C72, C79, ..). -/
theorem C105_reads {xs : List Charset} (hx : ∀ x ∈ xs, x.fine = true ∧ Charset.wide x = true) {s : Static π} (h : ReadsFamily s xs) (p : Nat → π)
    {cs cps : List Nat} (hc : cs.map (charIn xs) = cps.map some) : ReadsAs s p (codeBytes cs) cps := by
  have hx' : ∀ x ∈ xs, x.Fine ∧ Charset.wide x = true := fun x m => ⟨Charset.fine_iff (hx x m).1, (hx x m).2⟩
  obtain ⟨h1, h2⟩ := Family.pieces hx' hc
  obtain ⟨D, d1, d2⟩ := tables_pieces (s := s) (Rs := Family.rules xs) h.isFrom (by
    intro j hj
    rw [h.count] at hj
    match j with
    | 0 => exact ⟨h.ascii, fromAscii_prefixFree, ascii_data⟩
    | j + 1 =>
      have hj' : j < xs.length := by omega
      have := h.tables j hj'
      simp only [Family.rules, List.getElem?_eq_getElem hj']
      have hf := (hx' xs[j] (List.getElem_mem hj')).1
      exact ⟨this, fromRules_prefixFree hf, fromRules_data⟩) p (by rw [h.count]; exact h1)
  have hlen : cs.length = cps.length := by simpa using congrArg List.length hc
  rw [Family.pieces_snd hlen] at d2
  exact ⟨h2, D, d1, d2⟩

/-- C105.  `X:B` for any target B: the text comes out in B. -/
theorem C105_transcode {xs : List Charset} (hx : ∀ x ∈ xs, x.fine = true ∧ Charset.wide x = true)
    {st : Nat → Static π} {ip : Nat → Nat → π → π} {ins : Ins π} {b : Target} (hn : ins.phasen = 2)
    (ha : ReadsFamily (st 1) xs) (hb : b.Is (st 2)) (cs cps : List Nat) (hcs : cs.map (charIn xs) = cps.map some)
    (as : List Arg) (l : Arg) (h1 : ∀ y ∈ as, y.flush = false) (h2 : l.flush = true) (h3 : ∀ y ∈ as ++ [l], y.mode ≠ .null)
    (h4 : ((as ++ [l]).filterMap (fun y => y.input)).flatten = codeBytes cs) :
    ∃ ds ins', Session st (ins.init st ip) (as ++ [l]) ds ins' ∧
      (ds.map (fun d => d.bytes)).flatten ++ ins'.pending.flatten = (cps.filter b.takes).flatMap b.enc ∧
      ins'.ierr = ins.ierr ∧ ins'.oerr = ins.oerr + (cps.filter fun cp => !b.takes cp).length := by
  have hs : ∀ cp ∈ cps, Scalar cp := by
    intro cp hcp
    have : some cp ∈ cs.map (charIn xs) := by rw [hcs]; exact List.mem_map_of_mem hcp
    obtain ⟨c, _, e⟩ := List.mem_map.1 this
    unfold charIn at e
    split at e
    · simp only [Option.some.injEq] at e
      unfold Scalar Surrogate; omega
    · obtain ⟨l1, x, l2, ex, hf, _⟩ := List.findSome?_eq_some_iff.1 e
      exact ((Charset.fine_iff (hx x (by rw [ex]; simp)).1).codes _ (Chart.find_mem hf)).2.2
  obtain ⟨ds, ins', k1, k2, k3, k4⟩ := C63_reads (mid := []) hn cps cps (C105_reads hx ha _ hcs) hb (fun k h => absurd h (by simp)) (by simp) hs
    trivial rfl as l h1 h2 h3 h4
  exact ⟨ds, ins', k1, k2, k3, k4⟩

end Verif.Props
