import Verif.Proofs.Bsdconv
import Verif.Props.Inter
/-
C25: the text representation of data, to and from.
-/
namespace Verif.Props
open Verif.Spec
open Verif.Engine hiding Datum step
open Verif.Inter (plain)

variable {π : Type}

/-- What the automaton makes of a text, after digits `ns`. -/
theorem hex_run (t : List Nat) : ∀ ns : { ns : List Nat // ∀ x ∈ ns, x < 16 }, hexScanner.run (some ns) t =
    match digitValues t with
    | none => none
    | some vs => if ns.1 ++ vs = [] then some [] else if 2 ≤ (ns.1 ++ vs).length then some [pairUp (ns.1 ++ vs)] else none := by
  induction t with
  | nil =>
    intro ns
    simp only [Scanner.run, digitValues, List.append_nil, hexScanner]
    obtain ⟨ns, _⟩ := ns
    cases ns <;> simp
  | cons c t ih =>
    intro ns
    simp only [Scanner.run, digitValues]
    cases hs : hexScanner.step (some ns) c with
    | none =>
      simp only [hexScanner] at hs
      split at hs
      · rename_i h; rw [h]
      · simp at hs
    | some r =>
      obtain ⟨q', o⟩ := r
      simp only [hexScanner] at hs
      split at hs
      · simp at hs
      · rename_i v h
        simp only [Option.some.injEq, Prod.mk.injEq] at hs
        obtain ⟨rfl, rfl⟩ := hs
        simp only [h]
        rw [ih]
        cases digitValues t with
        | none => simp
        | some vs => simp only [List.append_assoc, List.singleton_append, Option.getD_none, List.nil_append, Option.map_id']

theorem hex_run_datum (t : List Nat) : hexScanner.run (some ⟨[], by simp⟩) t = hexDatum t := by
  rw [hex_run, hexDatum]
  match digitValues t with
  | none => rfl
  | some [] => rfl
  | some [_] => simp
  | some (a :: b :: r) => simp

/-- The decoding phase. -/
theorem hex_realises {s : Static π} {e : Lens π HexPriv} (hs : Only s .from_ (hexDecoder e)) {p : Nat → π} (hp : (e.get (p 0)).flag = .clear) :
    Realises s (fun r => r = p)
      { out := fun ds => (hexDatum ds.flatten).getD []
        dec := true
        ok := fun ds => (hexDatum ds.flatten).isSome } := by
  refine (scan_realises (hex_scans ⟨hs.type, hs.codec⟩) (q := some ⟨[], by simp⟩) ?_ ?_ rfl ?_).as rfl ?_ ?_
  · intro q b q' o h
    cases q with
    | none => simp [hexScanner] at h
    | some ns =>
      simp only [hexScanner] at h
      split at h <;> simp at h
  · intro q o h
    cases q with
    | none => simp [hexScanner] at h
    | some ns =>
      simp only [hexScanner] at h
      split at h
      · simp at h; subst h
        intro d hd; simp at hd; subst hd; exact pairUp_bytes _ ns.2
      · simp at h
  · intro x h1 h2 h3 h4 h5 h6
    refine ⟨h4, ?_⟩
    rw [if_pos rfl]
    exact ⟨h5, h2, h1, h3, by rw [h6]; exact hp⟩
  · intro ds _ hk
    simp only [Scanner.proc]
    rw [hex_run_datum]; exact hk
  · intro ds _ _
    refine ⟨?_, rfl, rfl, fun _ _ => trivial⟩
    simp only [Scanner.proc]
    rw [hex_run_datum]

theorem hexInit_clear (t : HexPriv) : (hexInit t).flag = .clear := rfl

theorem hex_start {st : Nat → Static π} {ip : Nat → Nat → π → π} {ins : Ins π} {k : Nat} (hk : k ≤ ins.phasen) (hk1 : 1 ≤ k) {e : Lens π HexPriv}
    (hi : ∀ x, e.get (ip k 0 x) = hexInit (e.get x)) : (e.get (initPriv st ip ins k 0)).flag = .clear := by
  rw [initPriv_get hk hk1 e hexInit hi]; rfl

/-- C25, reading.  Whatever the chunking, a text of hexadecimal digits (in either case, not just one) is read as one datum,
two digits for a byte. -/
theorem C25_read_partial {st : Nat → Static π} {ip : Nat → Nat → π → π} {ins : Ins π} {pre post : List (Proc π)} {s : Static π}
    (h : Placed st ip ins pre s post) (hpre : ∀ Q ∈ pre.getLast?, Q.dec = false) (hpost : ∀ Q ∈ post.head?, Q.dec = false)
    {e : Lens π HexPriv} (hs : Only s .from_ (hexDecoder e)) (hi : ∀ x, e.get (ip (pre.length + 1) 0 x) = hexInit (e.get x)) :
    Converts st ip ins (pre ++ { out := fun ds => (hexDatum ds.flatten).getD []
                                 dec := true
                                 ok := fun ds => (hexDatum ds.flatten).isSome } :: post) :=
  placed_decodes h (hex_realises hs (hex_start (placed_le h) (by omega) hi)) hpre hpost

/-- The text of a datum. -/
def hexText (d : Datum) : List Nat := d.flatMap Escape.hex2

theorem hex2_bytes (b : Nat) : IsBytes (Escape.hex2 b) := by
  have : ∀ n, n < 16 → Escape.hexDigit n < 256 := by intro n hn; unfold Escape.hexDigit; split <;> omega
  intro x hx
  simp only [Escape.hex2, List.mem_cons, List.not_mem_nil, or_false] at hx
  rcases hx with rfl | rfl <;> exact this _ (Nat.mod_lt _ (by decide))

theorem hexText_bytes (d : Datum) : IsBytes (hexText d) := by
  intro x hx
  obtain ⟨b, _, hb⟩ := List.mem_flatMap.1 hx
  exact hex2_bytes b x hb

/-- The encoding phase. -/
theorem hexEnc_realises {s : Static π} {e : Lens π Unit} (hs : Only s .to_ (plain e hexEncoder)) {p : Nat → π} :
    Realises s (fun r => r = p) { out := fun ds => (nonEmpty ds).map hexText } := by
  refine single_real (e := e) (single_plain hs (by simp) (fun _ => rfl))
    (sound_of (fun t d => (t, [hexText d])) (fun _ _ => rfl) (fun _ d _ x hx => by simp at hx; subst hx; exact hexText_bytes d) (fun _ => rfl)) rfl trivial rfl ?_
  intro ds _ _
  rw [run_map (fun t _ => t) (fun d => [hexText d]) (fun _ _ => rfl)]
  exact ⟨rfl, List.map_eq_flatMap, by simp, fun _ _ => trivial⟩

/-- C25, writing.  Every datum comes out as two upper-case digits for every byte, and nothing else. -/
theorem C25_dump {st : Nat → Static π} {ip : Nat → Nat → π → π} {ins : Ins π} {pre post : List (Proc π)} {s : Static π}
    (h : Placed st ip ins pre s post) {e : Lens π Unit} (hs : Only s .to_ (plain e hexEncoder)) :
    Converts st ip ins (pre ++ { out := fun ds => (nonEmpty ds).map hexText } :: post) :=
  placed_converts h (hexEnc_realises hs) rfl

theorem digit_back : ∀ n, n < 16 → digitValue (Escape.hexDigit n) = some n := by decide

theorem digitValues_append (x y : List Nat) : digitValues (x ++ y) =
    (match digitValues x, digitValues y with | some a, some b => some (a ++ b) | _, _ => none) := by
  induction x with
  | nil => simp only [List.nil_append, digitValues]; cases digitValues y <;> rfl
  | cons c x ih =>
    simp only [List.cons_append, digitValues, ih]
    cases digitValue c <;> cases digitValues x <;> cases digitValues y <;> rfl

theorem hexText_values (d : Datum) (hd : IsBytes d) : ∃ vs, digitValues (hexText d) = some vs ∧ pairUp vs = d ∧ vs.length = 2 * d.length := by
  induction d with
  | nil => exact ⟨[], rfl, rfl, rfl⟩
  | cons b d ih =>
    obtain ⟨vs, h1, h2, h3⟩ := ih (fun x hx => hd x (by simp [hx]))
    have hb := hd b (by simp)
    refine ⟨b / 16 % 16 :: b % 16 :: vs, ?_, ?_, by simp [h3]; omega⟩
    · have e : hexText (b :: d) = Escape.hexDigit (b / 16 % 16) :: Escape.hexDigit (b % 16) :: hexText d := rfl
      rw [e]
      simp only [digitValues, digit_back _ (Nat.mod_lt _ (by decide : 0 < 16)), h1]
    · simp only [pairUp, h2]
      congr 1
      omega

/-- The text of several data is the text of the data joined. -/
theorem hexDatum_join (ds : List Datum) (hb : AllBytes ds) : hexDatum (((nonEmpty ds).map hexText).flatten) =
    some (if ds.flatten = [] then [] else [ds.flatten]) := by
  have e : ((nonEmpty ds).map hexText).flatten = hexText ds.flatten := by
    rw [← flatten_nonEmpty ds]
    generalize nonEmpty ds = es
    induction es with
    | nil => rfl
    | cons x es ih => simp only [List.map_cons, List.flatten_cons, ih]; simp [hexText]
  rw [e]
  have hb' : IsBytes ds.flatten := by
    intro x hx; obtain ⟨d, hd, hx⟩ := List.mem_flatten.1 hx; exact hb d hd x hx
  obtain ⟨vs, h1, h2, h3⟩ := hexText_values _ hb'
  rw [hexDatum, h1]
  match vs, h2, h3 with
  | [], h2, _ => simp only [pairUp] at h2; rw [← h2]; rfl
  | [_], _, h3 => simp at h3; omega
  | a :: b :: r, h2, h3 =>
    have : ds.flatten ≠ [] := by intro e; rw [e] at h3; simp at h3
    simp only [h2, if_neg this]

/-- C25, there and back.  Writing any sequence of data and reading the text gives one datum, the data joined — so it gives
back what was written if it was a single datum, and does not if there were several (`C25_merged_violated`). -/
theorem C25_roundtrip_partial {st : Nat → Static π} {ip : Nat → Nat → π → π} {ins : Ins π} {pre post : List (Proc π)} {s1 s2 : Static π}
    (h : Placed2 st ip ins pre s1 s2 post) (hpost : ∀ Q ∈ post.head?, Q.dec = false)
    {e1 : Lens π Unit} {e2 : Lens π HexPriv} (hs1 : Only s1 .to_ (plain e1 hexEncoder)) (hs2 : Only s2 .from_ (hexDecoder e2))
    (hi : ∀ x, e2.get (ip (pre.length + 2) 0 x) = hexInit (e2.get x)) :
    ∃ P1 P2 : Proc π, Converts st ip ins (pre ++ P1 :: P2 :: post) ∧
      ∀ ds, AllBytes ds → P1.ok ds ∧ P2.ok (P1.out ds) ∧ P2.out (P1.out ds) = (if ds.flatten = [] then [] else [ds.flatten]) ∧
        P1.inErrors ds = 0 ∧ P1.outErrors ds = 0 ∧ P2.inErrors (P1.out ds) = 0 ∧ P2.outErrors (P1.out ds) = 0 := by
  have hn : ins.phasen = pre.length + 2 + post.length := h.phasen
  have h2 := hex_realises (p := initPriv st ip ins (pre.length + 2)) hs2 (hex_start (by omega) (by omega) hi)
  refine ⟨_, _, placed_converts (h.firstDec h2 hpost) (hexEnc_realises hs1) rfl, ?_⟩
  intro ds hb
  simp only [hexDatum_join ds hb, Option.isSome_some, Option.getD_some, and_self]

/-- C25 for one datum. -/
theorem C25_one (d : Datum) (hb : IsBytes d) (hne : d ≠ []) : hexDatum (hexText d) = some [d] := by
  have := hexDatum_join [d] (by intro x hx; simp at hx; subst hx; exact hb)
  cases d with
  | nil => exact absurd rfl hne
  | cons b d => simpa [nonEmpty] using this

/-- C25 is false for every sequence of two or more data: the text has no separators. -/
theorem C25_merged_violated (ds : List Datum) (hb : AllBytes ds) (hne : ∀ d ∈ ds, d ≠ []) (h2 : 2 ≤ ds.length) :
    hexDatum ((ds.map hexText).flatten) = some [ds.flatten] ∧ [ds.flatten] ≠ ds := by
  have e : nonEmpty ds = ds := by
    rw [nonEmpty, List.filter_eq_self]
    intro d hd; simpa using hne d hd
  have := hexDatum_join ds hb
  rw [e] at this
  have hf : ds.flatten ≠ [] := by
    match ds, h2 with
    | d :: ds, _ => have := hne d (by simp); simp [this]
  rw [if_neg hf] at this
  refine ⟨this, ?_⟩
  intro k
  rw [← k] at h2
  simp at h2

/-- The decoder alone. -/
def hexPhase : Static HexPriv := onePhase .from_ (hexDecoder (Lens.self _))

/-- C25: separators between the data do not help: they are counted as input errors. -/
theorem C25_separator_violated :
    ∃ ds i, Session (fun _ => hexPhase) ((solo {}).init (fun _ => hexPhase) (fun _ _ => hexInit))
      [⟨some [48, 49, 52, 49, 44, 48, 49, 52, 50], true, .hold⟩] ds i ∧ i.pending = [[1, 0x41], [1, 0x42]] ∧ i.ierr = 1 :=
  ⟨_, _, .cons (call_eval 200 (by decide +kernel)) (.nil _), by decide +kernel, by decide +kernel⟩

/-- C25, using the instance again: after reading "41", `bsdconv_init` and a text "," the decoder has freed the same memory
twice, because `cbinit` frees it without clearing the pointer. -/
theorem C25_double_free_violated :
    ∃ ds i ds' i', Session (fun _ => hexPhase) ((solo {}).init (fun _ => hexPhase) (fun _ _ => hexInit)) [⟨some [52, 49], true, .hold⟩] ds i ∧
      Session (fun _ => hexPhase) (i.init (fun _ => hexPhase) (fun _ _ => hexInit)) [⟨some [44], true, .hold⟩] ds' i' ∧
      ((i.ph 1).priv 0).bad = false ∧ ((i'.ph 1).priv 0).bad = true :=
  ⟨_, _, _, _, .cons (call_eval 100 (by decide +kernel)) (.nil _), .cons (call_eval 100 (by decide +kernel)) (.nil _), by decide +kernel, by decide +kernel⟩

/-! ### The hypotheses can be met -/

/-- Reading "41fF0" in two calls. -/
example : ∃ ds ins', Session (fun _ => hexPhase) ((solo { flag := .b }).init (fun _ => hexPhase) (fun _ _ => hexInit))
      (twoCalls [52, 49, 102] [70, 48]) ds ins' ∧ nonEmpty ins'.pending = [[0x41, 0xFF, 0]] := by
  obtain ⟨ds, ins', a, b, _⟩ := two_calls (C25_read_partial (placed_solo hexPhase (fun _ _ => hexInit) { flag := .b }) (by simp) (by simp)
    (e := Lens.self HexPriv) (only_one .from_ _) (fun _ => rfl)) (x := [52, 49, 102]) (y := [70, 48]) (by decide) (by decide) ⟨rfl, by decide⟩
  exact ⟨ds, ins', a, b.trans (by decide)⟩

/-- Writing two data. -/
example : ∃ ds ins', Session (fun _ => onePhase .to_ (plain (Lens.self Unit) hexEncoder))
      ((solo ()).init (fun _ => onePhase .to_ (plain (Lens.self Unit) hexEncoder)) (fun _ _ => id))
      (twoCalls [1, 0x4E, 0xFF] [3]) ds ins' ∧ nonEmpty ins'.pending = [[48, 49, 52, 69, 70, 70], [48, 51]] := by
  obtain ⟨ds, ins', a, b, _⟩ := two_calls (C25_dump (placed_solo _ (fun _ _ => id) ()) (only_one .to_ (plain (Lens.self Unit) hexEncoder)))
    (x := [1, 0x4E, 0xFF]) (y := [3]) (by decide) (by decide) ⟨rfl, trivial⟩
  exact ⟨ds, ins', a, b.trans (by decide)⟩

end Verif.Props
