import Verif.Props.IbmMixed2
/-
C107: IBM-930, IBM-933, IBM-935, IBM-937 and IBM-939, with their tables.
-/
namespace Verif.Props
open Verif.Spec
open Verif.Engine hiding Datum step
open Verif.MkTable (compiled)
open Verif.IbmMixed (Page pages fromRules toRules)

variable {π : Type}

namespace Mixed
open Verif.IbmMixed

theorem all_ok : ∀ p ∈ pages, shape p = true ∧ Inverse p := by
  intro p hp
  simp only [pages, List.mem_cons, List.not_mem_nil, or_false] at hp
  rcases hp with rfl | rfl | rfl | rfl | rfl
  · exact ⟨shape930, back930, forth930⟩
  · exact ⟨shape933, back933, forth933⟩
  · exact ⟨shape935, back935, forth935⟩
  · exact ⟨shape937, back937, forth937⟩
  · exact ⟨shape939, back939, forth939⟩

/-- The phase reads the code page: the callback of EBCDIC.c on the compiled rule file. -/
def Reads (p : Page) (e : Lens π Bool) (s : Static π) : Prop := Only s .from_ (ebcdicDecoder e (compiled π (decoderLines (fromRules p))))

/-- The phase writes the code page. -/
def Writes (p : Page) (e : Lens π Bool) (s : Static π) : Prop := Only s .to_ (ebcdicEncoder e (compiled π (encoderLines (toRules p))))

/-- Text in the code page with shift codes where they are needed. -/
def text (cs : List Nat) : List Datum := shifted false (cs.map beBytes)

theorem codesOf_map {T : Rules Nat Datum} {f : Nat → Datum} {g : Nat → Option Nat} {f' : Nat → Datum} (h : ∀ a b, g a = some b → lookup T (f a) = some (f' b)) :
    ∀ (xs ys : List Nat), xs.map g = ys.map some → codesOf T (xs.map f) = some (ys.map f')
  | [], [], _ => rfl
  | x :: xs, y :: ys, e => by
    simp only [List.map_cons, List.cons.injEq] at e
    simp only [List.map_cons, codesOf, h x y e.1, codesOf_map h xs ys e.2]
  | [], y :: ys, e => by simp at e
  | x :: xs, [], e => by simp at e

theorem nonEmpty_uni (cps : List Nat) : nonEmpty (cps.map uniDatum) = cps.map uniDatum := by
  unfold nonEmpty
  rw [List.filter_eq_self]
  intro d hd
  obtain ⟨c, _, rfl⟩ := List.mem_map.1 hd
  simp [uniDatum]

end Mixed
open Mixed

/-- C107.  Every code but those of the list `lost` is what its character is written as; every character but those of the list `alt` is what its code
is read as. -/
theorem C107_tables : ∀ p ∈ pages, (∀ c u, char p c = some u → c ∉ p.lost → code p u = some c) ∧
    ∀ u c, code p u = some c → u ∉ p.alt → char p c = some u := fun p hp =>
  ⟨fun _ _ h hl => char_code (all_ok p hp).1 (all_ok p hp).2 h hl, fun _ _ h hl => code_char (all_ok p hp).1 (all_ok p hp).2 h hl⟩

/-- C107, writing.  In any chunking, among any other phases: characters that have a code come out as their codes, with shift codes between codes of
different kinds and a last shift code back to single bytes. -/
theorem C107_encode {p : Page} (hp : p ∈ pages) {st : Nat → Static π} {ip : Nat → Nat → π → π} {ins : Ins π} {pre post : List (Proc π)} {s : Static π}
    (h : Placed st ip ins pre s post) {e : Lens π Bool} (hs : Writes p e s) (hi : ∀ x, e.get (ip (pre.length + 1) 0 x) = ebcdicInit (e.get x)) :
    ∃ P : Proc π, Converts st ip ins (pre ++ P :: post) ∧ ∀ (cps cs : List Nat), cps.map (code p) = cs.map some →
      P.ok (cps.map uniDatum) ∧ P.out (cps.map uniDatum) = text cs ∧ P.inErrors (cps.map uniDatum) = 0 ∧ P.outErrors (cps.map uniDatum) = 0 := by
  have hq := (all_ok p hp).1
  refine ⟨_, C40_encode_partial h (to_marked hq) hs hi, ?_⟩
  intro cps cs hc
  have := codesOf_map (T := toRules p) (f := uniDatum) (f' := beBytes) (g := code p) (fun a b hab => by
    rw [to_lookup hq (by have := (code_ok hq hab).1; unfold Scalar at this; omega), hab]; rfl) cps cs hc
  simp only [nonEmpty_uni, this, Option.isSome_some, Option.getD_some, text, and_self]

/-- C107, reading.  In any chunking, among any other phases: text in the code page is read as the characters of its codes, whatever shift codes it has
besides those that are needed. -/
theorem C107_decode {p : Page} (hp : p ∈ pages) {st : Nat → Static π} {ip : Nat → Nat → π → π} {ins : Ins π} {pre post : List (Proc π)} {s : Static π}
    (h : Placed st ip ins pre s post) (hpre : ∀ Q ∈ pre.getLast?, Q.dec = false) (hpost : ∀ Q ∈ post.head?, Q.dec = false)
    {e : Lens π Bool} (hs : Reads p e s) (hi : ∀ x, e.get (ip (pre.length + 1) 0 x) = ebcdicInit (e.get x)) :
    ∃ P : Proc π, Converts st ip ins (pre ++ P :: post) ∧ ∀ (ds : List Datum) (cs cps : List Nat), unshift false ds.flatten = some (cs.map beBytes) → cs.map (char p) = cps.map some →
      P.ok ds ∧ P.out ds = cps.map uniDatum ∧ P.inErrors ds = 0 ∧ P.outErrors ds = 0 := by
  have hq := (all_ok p hp).1
  refine ⟨_, C40_decode_partial h hpre hpost (from_marked hq) (shifts_ok hq) hs hi, ?_⟩
  intro ds cs cps hu hc
  have := codesOf_map (T := fromRules p) (f := beBytes) (f' := uniDatum) (g := char p) (fun a b hab => by
    rw [from_lookup hq (char_ok hq hab).1, hab]; rfl) cs cps hc
  simp only [hu, Option.bind_some, this, Option.isSome_some, Option.getD_some, and_self]

/-- C107.  What is written in a code page is what C107_decode reads: nobody takes a byte of a code for a shift code, except for the codes 0E and 0F. -/
theorem C107_text {p : Page} (hp : p ∈ pages) (cs : List Nat) (h : ∀ c ∈ cs, (char p c).isSome ∧ c ≠ 0x0E ∧ c ≠ 0x0F) :
    unshift false (text cs).flatten = some (cs.map beBytes) := by
  refine unshift_shifted _ ?_ false
  intro b hb
  obtain ⟨c, hc, rfl⟩ := List.mem_map.1 hb
  obtain ⟨h1, h2, h3⟩ := h c hc
  obtain ⟨u, hu⟩ := Option.isSome_iff_exists.1 h1
  exact (bytes_of (char_ok (all_ok p hp).1 hu).1).2.2.2 h2 h3

/-- C107, there and back.  Characters that have a code and are not in the list `alt`, U+000E and U+000F excepted, pass unchanged and without errors
through a phase that writes the code page and one behind it that reads it. -/
theorem C107_round_trip {p : Page} (hp : p ∈ pages) {st : Nat → Static π} {ip : Nat → Nat → π → π} {ins : Ins π} {pre post : List (Proc π)}
    {s1 s2 : Static π} (h : Placed2 st ip ins pre s1 s2 post) (hpost : ∀ Q ∈ post.head?, Q.dec = false)
    {e1 e2 : Lens π Bool} (hs1 : Writes p e1 s1) (hi1 : ∀ x, e1.get (ip (pre.length + 1) 0 x) = ebcdicInit (e1.get x))
    (hs2 : Reads p e2 s2) (hi2 : ∀ x, e2.get (ip (pre.length + 2) 0 x) = ebcdicInit (e2.get x)) :
    ∃ P1 P2 : Proc π, Converts st ip ins (pre ++ P1 :: P2 :: post) ∧
      ∀ cps : List Nat, (∀ cp ∈ cps, (code p cp).isSome ∧ cp ∉ p.alt ∧ cp ≠ 0x0E ∧ cp ≠ 0x0F) →
        P1.ok (cps.map uniDatum) ∧ P2.ok (P1.out (cps.map uniDatum)) ∧ P2.out (P1.out (cps.map uniDatum)) = cps.map uniDatum ∧
        P1.inErrors (cps.map uniDatum) = 0 ∧ P1.outErrors (cps.map uniDatum) = 0 ∧
        P2.inErrors (P1.out (cps.map uniDatum)) = 0 ∧ P2.outErrors (P1.out (cps.map uniDatum)) = 0 := by
  obtain ⟨hq, hv⟩ := all_ok p hp
  obtain ⟨P1, P2, k1, k2⟩ := C40_roundtrip_partial h hpost (to_marked hq) (from_marked hq) (shifts_ok hq) hs1 hi1 hs2 hi2
  refine ⟨P1, P2, k1, ?_⟩
  intro cps hc
  have := k2 (cps.map uniDatum) ?_
  · rw [nonEmpty_uni] at this
    exact this
  · intro d hd
    rw [nonEmpty_uni] at hd
    obtain ⟨cp, hcp, rfl⟩ := List.mem_map.1 hd
    obtain ⟨h1, h2, h3, h4⟩ := hc cp hcp
    obtain ⟨c, hcc⟩ := Option.isSome_iff_exists.1 h1
    obtain ⟨j1, j2⟩ := code_ok hq hcc
    have hch := code_char hq hv hcc h2
    refine ⟨beBytes c, ?_, (bytes_of j2).2.2.2 ?_ ?_, ?_⟩
    · rw [to_lookup hq (by unfold Scalar at j1; omega), hcc]; rfl
    · intro k
      rw [k, shift_chars hq |>.1] at hch
      exact h3 (Option.some.inj hch).symm
    · intro k
      rw [k, shift_chars hq |>.2] at hch
      exact h4 (Option.some.inj hch).symm
    · rw [from_lookup hq j2, hch]; rfl

/-- C107, back and there.  Text in the code page, of codes that are not in the list `lost`, read and written again comes out with the same codes and the
shift codes that are needed, without errors: unchanged if it had no others. -/
theorem C107_keeps {p : Page} (hp : p ∈ pages) {st : Nat → Static π} {ip : Nat → Nat → π → π} {ins : Ins π} {pre post : List (Proc π)}
    {s1 s2 : Static π} (h : Placed2 st ip ins pre s1 s2 post) (hpre : ∀ Q ∈ pre.getLast?, Q.dec = false)
    {e1 e2 : Lens π Bool} (hs1 : Reads p e1 s1) (hi1 : ∀ x, e1.get (ip (pre.length + 1) 0 x) = ebcdicInit (e1.get x))
    (hs2 : Writes p e2 s2) (hi2 : ∀ x, e2.get (ip (pre.length + 2) 0 x) = ebcdicInit (e2.get x)) :
    ∃ P1 P2 : Proc π, Converts st ip ins (pre ++ P1 :: P2 :: post) ∧
      ∀ (ds : List Datum) (cs : List Nat), unshift false ds.flatten = some (cs.map beBytes) → (∀ c ∈ cs, (char p c).isSome ∧ c ∉ p.lost) →
        P1.ok ds ∧ P2.ok (P1.out ds) ∧ P2.out (P1.out ds) = text cs ∧
        P1.inErrors ds = 0 ∧ P1.outErrors ds = 0 ∧ P2.inErrors (P1.out ds) = 0 ∧ P2.outErrors (P1.out ds) = 0 := by
  obtain ⟨hq, hv⟩ := all_ok p hp
  obtain ⟨P1, P2, k1, k2⟩ := C40_keeps_partial h hpre (to_marked hq) (from_marked hq) (shifts_ok hq) hs1 hi1 hs2 hi2
  refine ⟨P1, P2, k1, ?_⟩
  intro ds cs hu hc
  refine k2 ds (cs.map beBytes) hu ?_
  intro b hb
  obtain ⟨c, hcs, rfl⟩ := List.mem_map.1 hb
  obtain ⟨h1, h2⟩ := hc c hcs
  obtain ⟨u, hcu⟩ := Option.isSome_iff_exists.1 h1
  obtain ⟨j1, j2⟩ := char_ok hq hcu
  refine ⟨uniDatum u, ?_, ?_⟩
  · rw [from_lookup hq j1, hcu]; rfl
  · rw [to_lookup hq (by unfold Scalar at j2; omega), char_code hq hv hcu h2]; rfl

/-! ### The hypotheses can be met -/

/-- IBM-935 -/
def page935 : Page := ⟨Verif.IbmMixed.ibm935, Verif.IbmMixed.lost935, Verif.IbmMixed.alt935⟩

theorem mem935 : page935 ∈ pages := by simp [pages, page935]

/-- The phases of `IBM-935:IBM-935`. -/
def conv935 (k : Nat) : Static Bool :=
  if k = 1 then onePhase .from_ (ebcdicDecoder (Lens.self Bool) (compiled Bool (decoderLines (Verif.IbmMixed.fromRules page935))))
  else onePhase .to_ (ebcdicEncoder (Lens.self Bool) (compiled Bool (encoderLines (Verif.IbmMixed.toRules page935))))

-- The letter A, the two characters U+4E2D U+56FD and again A, read and written.
example : ∃ P1 P2 : Proc Bool, Converts conv935 (fun _ _ => ebcdicInit) { ph := fun _ => { priv := fun _ => true }, phasen := 2 } [P1, P2] ∧
    P2.out (P1.out [[0xC1, 0x0E], [0x5B], [0xCF, 0x4D, 0x9B, 0x0F, 0xC1]]) = [[0xC1], [0x0E], [0x5B, 0xCF], [0x4D, 0x9B], [0x0F], [0xC1]] := by
  obtain ⟨P1, P2, h1, h2⟩ := C107_keeps mem935 (π := Bool) (pre := []) (post := []) (st := conv935) (ip := fun _ _ => ebcdicInit)
    (ins := { ph := fun _ => { priv := fun _ => true }, phasen := 2 })
    ⟨by intro k h; simp at h, rfl, rfl, by intro k h; simp at h, by intro k h; simp at h, by intro k h; simp at h, rfl⟩
    (by simp) (only_one .from_ _) (fun _ => rfl) (only_one .to_ _) (fun _ => rfl)
  have e : [0xC1, 0x5BCF, 0x4D9B, 0xC1].map beBytes = [[0xC1], [0x5B, 0xCF], [0x4D, 0x9B], [0xC1]] := by
    simp only [List.map_cons, List.map_nil, be1 (show 0xC1 < 256 by decide), be2 (show 256 ≤ 0x5BCF by decide) (by decide),
      be2 (show 256 ≤ 0x4D9B by decide) (by decide)]
  refine ⟨P1, P2, h1, ((h2 [[0xC1, 0x0E], [0x5B], [0xCF, 0x4D, 0x9B, 0x0F, 0xC1]] [0xC1, 0x5BCF, 0x4D9B, 0xC1] ?_ (by decide +kernel)).2.2.1).trans ?_⟩
  · rw [e]; decide
  · rw [text, e]; decide

end Verif.Props
