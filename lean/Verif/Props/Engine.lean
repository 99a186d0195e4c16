import Verif.Proofs.MkStatic

/-!
Properties C01-C06 and C12: what a `bsdconv()` conversion with table codecs computes.

`Implements st L` : the phases of the instance are table phases for the chain `L` of rule sets.
`Call`/`Session`   : complete `bsdconv()` calls, including the output switch.
`tokens`, `pipeline`, ... : the specification in Spec/Tokens.lean.
-/

namespace Verif.Props
open Verif.Spec
open Verif.Engine hiding Datum

variable {π : Type}

/-! ### The specification of matching says what it should -/

/-- `longest R s = some (n, b)` iff the first `n ≥ 1` elements of `s` are a pattern rewritten to `b` and
no longer prefix of `s` is a pattern. -/
theorem spec_longest {α β : Type} [DecidableEq α] (R : Rules α β) (s : List α) (n : Nat) (b : β) :
    longest R s = some (n, b) ↔
      1 ≤ n ∧ n ≤ s.length ∧ lookup R (s.take n) = some b ∧
        ∀ m, n < m → m ≤ s.length → lookup R (s.take m) = none := by
  have key : ∀ k, longestUpTo R s k = some (n, b) ↔
      1 ≤ n ∧ n ≤ k ∧ lookup R (s.take n) = some b ∧ ∀ m, n < m → m ≤ k → lookup R (s.take m) = none := by
    intro k
    induction k with
    | zero => simp only [longestUpTo]; constructor
              · intro h; simp at h
              · rintro ⟨h1, h2, _⟩; omega
    | succ k ih =>
      simp only [longestUpTo]
      cases hl : lookup R (s.take (k + 1)) with
      | some b' =>
        simp only [Option.some.injEq, Prod.mk.injEq]
        constructor
        · rintro ⟨rfl, rfl⟩
          exact ⟨by omega, Nat.le_refl _, hl, fun m h1 h2 => by omega⟩
        · rintro ⟨h1, h2, h3, h4⟩
          by_cases hn : n = k + 1
          · subst hn; rw [hl] at h3; exact ⟨rfl, Option.some.inj h3⟩
          · have := h4 (k + 1) (by omega) (Nat.le_refl _)
            rw [hl] at this; simp at this
      | none =>
        simp only []
        rw [ih]
        constructor
        · rintro ⟨h1, h2, h3, h4⟩
          refine ⟨h1, by omega, h3, ?_⟩
          intro m hm1 hm2
          by_cases hm : m = k + 1
          · subst hm; exact hl
          · exact h4 m hm1 (by omega)
        · rintro ⟨h1, h2, h3, h4⟩
          refine ⟨h1, ?_, h3, fun m hm1 hm2 => h4 m hm1 (by omega)⟩
          by_cases hn : n = k + 1
          · subst hn; rw [hl] at h3; simp at h3
          · omega
  exact key s.length

/-- Nothing of the text is skipped or duplicated: a text is the concatenation of the stretches its
tokens stand for, each being a pattern with the token's rewriting or a single missed element. -/
theorem spec_tokens_cover {α β : Type} [DecidableEq α] (Rs : List (Rules α β)) (s : List α) :
    ∃ segs : List (List α), segs.flatten = s ∧ segs.length = (tokens Rs s).length ∧
      ∀ i (h : i < segs.length) (h' : i < (tokens Rs s).length),
        (∃ b R, (tokens Rs s)[i] = .hit b ∧ R ∈ Rs ∧ lookup R segs[i] = some b) ∨
        (∃ a, (tokens Rs s)[i] = .miss a ∧ segs[i] = [a]) := by
  have hlen : ∀ n, ∀ s : List α, s.length ≤ n → ∃ segs : List (List α), segs.flatten = s ∧
      segs.length = (tokens Rs s).length ∧
      ∀ i (h : i < segs.length) (h' : i < (tokens Rs s).length),
        (∃ b R, (tokens Rs s)[i] = .hit b ∧ R ∈ Rs ∧ lookup R segs[i] = some b) ∨
        (∃ a, (tokens Rs s)[i] = .miss a ∧ segs[i] = [a]) := by
    intro n
    induction n with
    | zero =>
      intro s hs
      have : s = [] := List.length_eq_zero_iff.1 (by omega)
      subst this
      exact ⟨[], rfl, by simp [tokens], fun i h => by simp at h⟩
    | succ n ih =>
      intro s hs
      cases s with
      | nil => exact ⟨[], rfl, by simp [tokens], fun i h => by simp at h⟩
      | cons a t =>
        cases hf : firstMatch Rs (a :: t) with
        | none =>
          rw [tokens_miss hf]
          obtain ⟨segs, h1, h2, h3⟩ := ih t (by simp at hs; omega)
          refine ⟨[a] :: segs, by simp [h1], by simp [h2], ?_⟩
          intro i h h'
          cases i with
          | zero => exact .inr ⟨a, rfl, rfl⟩
          | succ i => simpa using h3 i (by simpa using h) (by simpa using h')
        | some r =>
          obtain ⟨m, b⟩ := r
          have hpos := firstMatch_pos hf
          rw [tokens_hit hf]
          obtain ⟨segs, h1, h2, h3⟩ := ih ((a :: t).drop m) (by simp at hs; simp; omega)
          refine ⟨(a :: t).take m :: segs, by simp [h1], by simp [h2], ?_⟩
          intro i h h'
          cases i with
          | zero =>
            left
            have : ∃ R ∈ Rs, longest R (a :: t) = some (m, b) := by
              clear ih h1 h2 h3 h h' hs
              induction Rs with
              | nil => simp [firstMatch] at hf
              | cons R rest ihR =>
                simp only [firstMatch] at hf
                cases hl : longest R (a :: t) with
                | some r => rw [hl] at hf; exact ⟨R, by simp, by rw [hl]; exact hf⟩
                | none =>
                  rw [hl] at hf
                  obtain ⟨R', hR', h'⟩ := ihR hf
                  exact ⟨R', by simp [hR'], h'⟩
            obtain ⟨R, hR, hl⟩ := this
            exact ⟨b, R, rfl, hR, ((spec_longest R _ m b).1 hl).2.2.1⟩
          | succ i => simpa using h3 i (by simpa using h) (by simpa using h')
  exact hlen s.length s (Nat.le_refl _)

/-! ### C05 and C08: a conversion session computes the pipeline -/

/-- C05.  Feeding any sequence of chunks to a freshly initialised instance, the last call with `flush`,
in any mixture of output modes (other than NULL, which throws output away, and PASS): the calls return,
and all bytes delivered so far followed by the bytes still pending are the composition of the phases
applied to the input; the error counters have grown by the errors of the phases.
If everything is held back, the pending data themselves (not only their bytes) are those of the
composition.  `Tame` is no restriction for input given in one chunk to decoder - rewriters - encoders
with one-symbol encoder tables. -/
theorem C05_pipeline {st : Nat → Static π} {L : List Phase} (hL : Implements st L)
    (ip : Nat → Nat → π → π) (ins : Ins π) (hn : ins.phasen = L.length)
    (as : List Arg) (a : Arg) (hflush : ∀ x ∈ as, x.flush = false) (hlast : a.flush = true)
    (hmode : ∀ x ∈ as ++ [a], x.mode ≠ .null) (hbytes : ∀ x ∈ as ++ [a], ∀ c ∈ x.input, IsBytes c)
    (input : List Datum) (hin : input = (as ++ [a]).filterMap (fun x => x.input)) (ht : Tame L input) :
    ∃ ds ins', Session st (ins.init st ip) (as ++ [a]) ds ins' ∧
      (ds.map (fun d => d.bytes)).flatten ++ ins'.pending.flatten = (pipeline L input).flatten ∧
      ((∀ x ∈ as ++ [a], x.mode = .hold) → nonEmpty ins'.pending = nonEmpty (pipeline L input)) ∧
      ins'.ierr = ins.ierr + pipelineIn L input ∧ ins'.oerr = ins.oerr + pipelineOut L input := by
  subst hin
  obtain ⟨ds, ins', h1, h2, h3, h4, h5, _⟩ := session_spec hL ip ins hn as a hflush hlast hmode hbytes ht
  exact ⟨ds, ins', h1, h2, h3, h4, h5⟩

/-- The result of a session is determined, so C05 describes the only possible outcome. -/
theorem C05_outcome_unique {st : Nat → Static π} {ins : Ins π} {as : List Arg} {ds ds' : List Delivery}
    {i1 i2 : Ins π} (h : Session st ins as ds i1) (h' : Session st ins as ds' i2) : ds = ds' ∧ i1 = i2 :=
  h.unique h'

/-- The example conversion used for non-vacuity: decoder, rewriter, encoder. -/
def exL : List Phase := [exDecode, exRewrite, exEncode]

theorem exL_implements : Implements (mkAll exL) exL := by
  refine mkAll_implements (by simp [exL]) ?_ ?_
  · intro p hp
    simp only [exL, List.mem_cons, List.not_mem_nil, or_false] at hp
    rcases hp with rfl | rfl | rfl
    · exact exDecode_wf
    · exact exRewrite_wf
    · exact exEncode_wf
  · intro k hk
    match k, hk with
    | 0, _ => intro _; rfl
    | 1, _ => intro h; simp [exL, isDecode, exRewrite] at h
    | k + 2, hk => simp [exL] at hk; omega

/-- "ac?ab" in one chunk, with an undecodable byte: meets `Tame`. -/
theorem exL_tame : Tame exL [[97, 99, 63, 97, 98]] := by
  refine ⟨.inr (by simp), trivial, rfl, trivial, rfl, .inr ?_, trivial⟩
  intro r hr
  simp only [List.getLast?_singleton, Option.getD_some, List.mem_cons, List.not_mem_nil, or_false] at hr
  rcases hr with rfl | rfl | rfl <;> simp

/-- Its pipeline value. -/
theorem exL_value : pipeline exL [[97, 99, 63, 97, 98]] = [[195, 169], [66]] ∧
    pipelineIn exL [[97, 99, 63, 97, 98]] = 1 ∧ pipelineOut exL [[97, 99, 63, 97, 98]] = 0 := by
  decide +kernel

example : ∃ ds ins', Session (mkAll exL) ((mkIns exL).init (mkAll exL) (fun _ _ x => x))
      ([] ++ [⟨some [97, 99, 63, 97, 98], true, .file⟩]) ds ins' ∧
      (ds.map (fun d => d.bytes)).flatten ++ ins'.pending.flatten = [195, 169, 66] ∧
      ins'.ierr = 1 ∧ ins'.oerr = 0 := by
  obtain ⟨ds, ins', h1, h2, _, h4, h5⟩ := C05_pipeline exL_implements (fun _ _ x => x) (mkIns exL) rfl []
    ⟨some [97, 99, 63, 97, 98], true, .file⟩ (by simp) rfl (by simp)
    (by intro x hx c hc; simp at hx; subst hx; simp at hc; subst hc; intro b hb; simp at hb; omega)
    [[97, 99, 63, 97, 98]] rfl exL_tame
  rw [exL_value.1] at h2
  rw [exL_value.2.1] at h4
  rw [exL_value.2.2] at h5
  exact ⟨ds, ins', h1, h2, h4, h5⟩

/-! ### C01: decoding -/

/-- C01.  One flushed call: the input is cut into tokens from left to right, at each position by the
longest rule of the first table that matches there; what follows sees exactly the rules' data, in order;
every byte at which no table matches counts one input error and yields nothing. -/
theorem C01_decode {st : Nat → Static π} {Rs : List (Rules Nat (List Datum))} {rest : List Phase}
    (hL : Implements st (.decode Rs :: rest)) (ip : Nat → Nat → π → π) (ins : Ins π)
    (hn : ins.phasen = rest.length + 1) (input : Datum) (hb : IsBytes input) (mode : Mode)
    (hm : mode ≠ .null) (ht : TameRest rest (dropMisses (tokens Rs input))) :
    ∃ d ins', Call st (ins.init st ip) ⟨some input, true, mode⟩ d ins' ∧
      d.bytes ++ ins'.pending.flatten = (pipeline rest (dropMisses (tokens Rs input))).flatten ∧
      (mode = .hold → nonEmpty ins'.pending = nonEmpty (pipeline rest (dropMisses (tokens Rs input)))) ∧
      ins'.ierr = ins.ierr + (misses (tokens Rs input) + pipelineIn rest (dropMisses (tokens Rs input))) := by
  have hfl : [input].flatten = input := by simp
  obtain ⟨ds, ins', h1, h2, h3, h4, h5⟩ := C05_pipeline hL ip ins (by simpa using hn) []
    ⟨some input, true, mode⟩ (by simp) rfl (by simpa using hm)
    (by intro x hx c hc; simp at hx; subst hx; simp at hc; subst hc; exact hb) [input] rfl
    ⟨.inr (by simp), trivial, by simpa [Phase.out, hfl] using ht⟩
  simp only [pipeline, pipelineIn, Phase.out, Phase.inErrors, hfl] at h2 h3 h4
  cases h1 with
  | cons hc hs =>
    cases hs
    exact ⟨_, ins', hc, by simpa using h2, fun h => h3 (by simpa using h), h4⟩

/-- A decoder alone delivers exactly the rewritings. -/
example : ∃ d ins', Call (mkAll [exDecode]) ((mkIns [exDecode]).init (mkAll [exDecode]) (fun _ _ x => x))
    ⟨some [97, 99, 63, 98], true, .hold⟩ d ins' ∧ nonEmpty ins'.pending = [[1, 233], [1, 98]] ∧ ins'.ierr = 1 := by
  obtain ⟨d, ins', h1, _, h3, h4⟩ := C01_decode (rest := [])
    (mkAll_implements (L := [exDecode]) (by simp) (by intro p hp; simp at hp; subst hp; exact exDecode_wf)
      (by intro k hk; simp at hk)) (fun _ _ x => x) (mkIns [exDecode]) rfl [97, 99, 63, 98]
    (by intro b hb; simp at hb; omega) .hold (by simp) trivial
  have : tokens [[([97], [[1, 97]]), ([98], [[1, 98]]), ([97, 99], [[1, 233]])]] [97, 99, 63, 98]
      = [.hit [[1, 233]], .miss 63, .hit [[1, 98]]] := by decide +kernel
  rw [this] at h3 h4
  exact ⟨d, ins', h1, h3 rfl, h4⟩

/-! ### C03, C04: encoding and rewriting phases -/

theorem pipeline_snoc (L : List Phase) (p : Phase) (ds : List Datum) :
    pipeline (L ++ [p]) ds = p.out (pipeline L ds) := by
  induction L generalizing ds with
  | nil => rfl
  | cons q L ih => simp only [List.cons_append, pipeline]; exact ih _

theorem pipelineOut_snoc (L : List Phase) (p : Phase) (ds : List Datum) :
    pipelineOut (L ++ [p]) ds = pipelineOut L ds + p.outErrors (pipeline L ds) := by
  induction L generalizing ds with
  | nil => simp [pipelineOut, pipeline]
  | cons q L ih => simp only [List.cons_append, pipelineOut, pipeline]; rw [ih]; omega

/-- C03.  An encoding phase at the end of a conversion receives the symbols produced by the phases before
it, rewrites them by longest match of the first table that matches, and drops every symbol that no table
matches, counting one output error each. -/
theorem C03_encode {st : Nat → Static π} {pre : List Phase} {Rs : List (Rules Datum (List Datum))}
    (hL : Implements st (pre ++ [.encode Rs])) (ip : Nat → Nat → π → π) (ins : Ins π)
    (hn : ins.phasen = pre.length + 1)
    (as : List Arg) (a : Arg) (hflush : ∀ x ∈ as, x.flush = false) (hlast : a.flush = true)
    (hmode : ∀ x ∈ as ++ [a], x.mode ≠ .null) (hbytes : ∀ x ∈ as ++ [a], ∀ c ∈ x.input, IsBytes c)
    (input : List Datum) (hin : input = (as ++ [a]).filterMap (fun x => x.input))
    (ht : Tame (pre ++ [.encode Rs]) input) :
    ∃ ds ins', Session st (ins.init st ip) (as ++ [a]) ds ins' ∧
      (ds.map (fun d => d.bytes)).flatten ++ ins'.pending.flatten
        = (dropMisses (tokens Rs (nonEmpty (pipeline pre input)))).flatten ∧
      ins'.oerr = ins.oerr + (pipelineOut pre input + misses (tokens Rs (nonEmpty (pipeline pre input)))) := by
  obtain ⟨ds, ins', h1, h2, _, _, h5⟩ := C05_pipeline hL ip ins (by simpa using hn) as a hflush hlast hmode
    hbytes input hin ht
  rw [pipeline_snoc] at h2
  rw [pipelineOut_snoc] at h5
  exact ⟨ds, ins', h1, h2, h5⟩

/-- Non-vacuity of C03: an encoder fed with one encodable and one unencodable symbol. -/
example : ∃ ds ins', Session (mkAll [exEncode]) ((mkIns [exEncode]).init (mkAll [exEncode]) (fun _ _ x => x))
    ([⟨some [1, 98], false, .hold⟩] ++ [⟨some [1, 97], true, .file⟩]) ds ins' ∧
    (ds.map (fun d => d.bytes)).flatten ++ ins'.pending.flatten = [97] ∧ ins'.oerr = 1 := by
  obtain ⟨ds, ins', h1, h2, h3⟩ := C03_encode (pre := [])
    (mkAll_implements (L := [exEncode]) (by simp) (by intro p hp; simp at hp; subst hp; exact exEncode_wf)
      (by intro k hk; simp at hk)) (fun _ _ x => x) (mkIns [exEncode]) rfl
    [⟨some [1, 98], false, .hold⟩] ⟨some [1, 97], true, .file⟩ (by simp) rfl (by simp)
    (by intro x hx c hc; simp at hx; rcases hx with rfl | rfl <;> (simp at hc; subst hc; intro b hb; simp at hb; omega))
    [[1, 98], [1, 97]] rfl
    ⟨.inl rfl, .inr (by
      intro r hr
      simp only [List.getLast?_singleton, Option.getD_some, List.mem_cons, List.not_mem_nil, or_false] at hr
      rcases hr with rfl | rfl | rfl <;> simp), trivial⟩
  have : tokens [[([[1, 97]], [[97]]), ([[1, 66]], [[66]]), ([[1, 233]], [[195, 169]])]]
      (nonEmpty (pipeline [] [[1, 98], [1, 97]])) = [.miss [1, 98], .hit [[97]]] := by decide +kernel
  rw [this] at h2 h3
  exact ⟨ds, ins', h1, h2, h3⟩

/-- C04.  An intermediate phase at the end of a conversion rewrites the symbols it receives by longest
match of the first table that matches and passes every other symbol on unchanged, in place; it counts no
errors of its own. -/
theorem C04_rewrite {st : Nat → Static π} {pre : List Phase} {Rs : List (Rules Datum (List Datum))}
    (hL : Implements st (pre ++ [.rewrite Rs])) (ip : Nat → Nat → π → π) (ins : Ins π)
    (hn : ins.phasen = pre.length + 1)
    (as : List Arg) (a : Arg) (hflush : ∀ x ∈ as, x.flush = false) (hlast : a.flush = true)
    (hmode : ∀ x ∈ as ++ [a], x.mode = .hold) (hbytes : ∀ x ∈ as ++ [a], ∀ c ∈ x.input, IsBytes c)
    (input : List Datum) (hin : input = (as ++ [a]).filterMap (fun x => x.input))
    (ht : Tame (pre ++ [.rewrite Rs]) input) :
    ∃ ds ins', Session st (ins.init st ip) (as ++ [a]) ds ins' ∧
      nonEmpty ins'.pending = nonEmpty (passMisses (tokens Rs (nonEmpty (pipeline pre input)))) ∧
      ins'.oerr = ins.oerr + pipelineOut pre input := by
  obtain ⟨ds, ins', h1, _, h3, _, h5⟩ := C05_pipeline hL ip ins (by simpa using hn) as a hflush hlast
    (by intro x hx; rw [hmode x hx]; simp) hbytes input hin ht
  rw [pipeline_snoc] at h3
  rw [pipelineOut_snoc] at h5
  exact ⟨ds, ins', h1, h3 hmode, h5⟩

/-- Non-vacuity of C04. -/
example : ∃ ds ins', Session (mkAll [exRewrite]) ((mkIns [exRewrite]).init (mkAll [exRewrite]) (fun _ _ x => x))
    ([⟨some [1, 97], false, .hold⟩, ⟨some [1, 97], false, .hold⟩] ++ [⟨some [1, 98], true, .hold⟩]) ds ins' ∧
    nonEmpty ins'.pending = [[1, 97], [1, 66]] ∧ ins'.oerr = 0 := by
  obtain ⟨ds, ins', h1, h2, h3⟩ := C04_rewrite (pre := [])
    (mkAll_implements (L := [exRewrite]) (by simp) (by intro p hp; simp at hp; subst hp; exact exRewrite_wf)
      (by intro k hk; simp at hk)) (fun _ _ x => x) (mkIns [exRewrite]) rfl
    [⟨some [1, 97], false, .hold⟩, ⟨some [1, 97], false, .hold⟩] ⟨some [1, 98], true, .hold⟩ (by simp) rfl (by simp)
    (by intro x hx c hc; simp at hx; rcases hx with rfl | rfl | rfl <;>
          (simp at hc; subst hc; intro b hb; simp at hb; omega))
    [[1, 97], [1, 97], [1, 98]] rfl ⟨.inl rfl, trivial, trivial⟩
  have : tokens [[([[1, 97], [1, 98]], [[1, 66]])]] (nonEmpty (pipeline [] [[1, 97], [1, 97], [1, 98]]))
      = [.miss [1, 97], .hit [[1, 66]]] := by decide +kernel
  rw [this] at h2
  exact ⟨ds, ins', h1, h2, h3⟩

/-! ### C02: chunking -/

theorem pipeline_flatten {Rs : List (Rules Nat (List Datum))} {rest : List Phase} {xs ys : List Datum}
    (h : xs.flatten = ys.flatten) :
    pipeline (.decode Rs :: rest) xs = pipeline (.decode Rs :: rest) ys ∧
    pipelineIn (.decode Rs :: rest) xs = pipelineIn (.decode Rs :: rest) ys ∧
    pipelineOut (.decode Rs :: rest) xs = pipelineOut (.decode Rs :: rest) ys := by
  simp only [pipeline, pipelineIn, pipelineOut, Phase.out, Phase.inErrors, Phase.outErrors, h]
  exact ⟨trivial, trivial, trivial⟩

/-- C02, for inputs without undecodable bytes (missing: inputs with undecodable bytes, for which the claim
is false, see `C02_chunking_violated`).  However the input is cut into chunks, the delivered and pending
bytes and both counters are the same. -/
theorem C02_chunking_partial {st : Nat → Static π} {Rs : List (Rules Nat (List Datum))} {rest : List Phase}
    (hL : Implements st (.decode Rs :: rest)) (ip : Nat → Nat → π → π) (ins : Ins π)
    (hn : ins.phasen = rest.length + 1)
    (as bs : List Arg) (a b : Arg) (hfa : ∀ x ∈ as, x.flush = false) (hfb : ∀ x ∈ bs, x.flush = false)
    (hla : a.flush = true) (hlb : b.flush = true)
    (hma : ∀ x ∈ as ++ [a], x.mode ≠ .null) (hmb : ∀ x ∈ bs ++ [b], x.mode ≠ .null)
    (hba : ∀ x ∈ as ++ [a], ∀ c ∈ x.input, IsBytes c) (hbb : ∀ x ∈ bs ++ [b], ∀ c ∈ x.input, IsBytes c)
    (input : Datum)
    (hia : ((as ++ [a]).filterMap (fun x => x.input)).flatten = input)
    (hib : ((bs ++ [b]).filterMap (fun x => x.input)).flatten = input)
    (hclean : misses (tokens Rs input) = 0) (ht : TameRest rest (dropMisses (tokens Rs input))) :
    ∃ ds ins1 es ins2, Session st (ins.init st ip) (as ++ [a]) ds ins1 ∧
      Session st (ins.init st ip) (bs ++ [b]) es ins2 ∧
      (ds.map (fun d => d.bytes)).flatten ++ ins1.pending.flatten
        = (es.map (fun d => d.bytes)).flatten ++ ins2.pending.flatten ∧
      ins1.ierr = ins2.ierr ∧ ins1.oerr = ins2.oerr := by
  have tame : ∀ xs : List Datum, xs.flatten = input → Tame (.decode Rs :: rest) xs := by
    intro xs hx
    refine ⟨.inl ?_, trivial, ?_⟩
    · simpa [Phase.inErrors, hx] using hclean
    · simpa [Phase.out, hx] using ht
  obtain ⟨ds, i1, h1, h2, _, h4, h5⟩ := C05_pipeline hL ip ins (by simpa using hn) as a hfa hla hma hba _ rfl
    (tame _ hia)
  obtain ⟨es, i2, k1, k2, _, k4, k5⟩ := C05_pipeline hL ip ins (by simpa using hn) bs b hfb hlb hmb hbb _ rfl
    (tame _ hib)
  obtain ⟨p1, p2, p3⟩ := pipeline_flatten (Rs := Rs) (rest := rest) (hia.trans hib.symm)
  refine ⟨ds, i1, es, i2, h1, k1, ?_, ?_, ?_⟩
  · rw [h2, k2, p1]
  · rw [h4, k4, p2]
  · rw [h5, k5, p3]

example : misses (tokens [[([97], [[1, 97]]), ([98], [[1, 98]]), ([97, 99], [[1, 233]])]] [97, 97, 99, 98]) = 0 ∧
    [[97, 97], [99, 98]].flatten = [97, 97, 99, 98] := by decide +kernel

/-- Evaluate a call with at most `m` engine steps. -/
theorem call_of_run {st : Nat → Static π} {ins : Ins π} {a : Arg} (m : Nat)
    (h : (run st m (ins.start (a.input.map (fun x => (x, []))) a.flush)).2 = .done) :
    Call st ins a
      (deliver a.mode
        (((run st m (ins.start (a.input.map (fun x => (x, []))) a.flush)).1.ph
          (run st m (ins.start (a.input.map (fun x => (x, []))) a.flush)).1.phasen).q)
        (((run st m (ins.start (a.input.map (fun x => (x, []))) a.flush)).1.ph
          (run st m (ins.start (a.input.map (fun x => (x, []))) a.flush)).1.phasen).consumed)).1
      ((run st m (ins.start (a.input.map (fun x => (x, []))) a.flush)).1.setLast
        (deliver a.mode
          (((run st m (ins.start (a.input.map (fun x => (x, []))) a.flush)).1.ph
            (run st m (ins.start (a.input.map (fun x => (x, []))) a.flush)).1.phasen).q)
          (((run st m (ins.start (a.input.map (fun x => (x, []))) a.flush)).1.ph
            (run st m (ins.start (a.input.map (fun x => (x, []))) a.flush)).1.phasen).consumed)).2) :=
  ⟨m, _, Prod.ext rfl h, rfl, rfl⟩

/-- Final state of a call run for `m` steps. -/
def callState (st : Nat → Static π) (m : Nat) (ins : Ins π) (a : Arg) : Ins π :=
  let i1 := (run st m (ins.start (a.input.map (fun x => (x, []))) a.flush)).1
  i1.setLast (deliver a.mode (i1.ph i1.phasen).q (i1.ph i1.phasen).consumed).2

/-- Delivery of a call run for `m` steps. -/
def callOut (st : Nat → Static π) (m : Nat) (ins : Ins π) (a : Arg) : Delivery :=
  let i1 := (run st m (ins.start (a.input.map (fun x => (x, []))) a.flush)).1
  (deliver a.mode (i1.ph i1.phasen).q (i1.ph i1.phasen).consumed).1

theorem call_eval {st : Nat → Static π} {ins : Ins π} {a : Arg} (m : Nat)
    (h : (run st m (ins.start (a.input.map (fun x => (x, []))) a.flush)).2 = .done) :
    Call st ins a (callOut st m ins a) (callState st m ins a) := call_of_run m h

/-- C02 is false in general: with the decoder of `exDecode`, "a" followed by "\xFF b" in a second call
loses the `b` that the same three bytes in one call deliver (/repo/src/libbsdconv.c:665-674: the offset of
the first unread byte is applied to the second chunk after the first was freed). -/
theorem C02_chunking_violated :
    ∃ (ds es : List Delivery) (i1 i2 : Ins Unit),
      Implements (mkAll [exDecode]) [exDecode] ∧
      Session (mkAll [exDecode]) ((mkIns [exDecode]).init (mkAll [exDecode]) (fun _ _ x => x))
        [⟨some [97], false, .file⟩, ⟨some [255, 98], true, .file⟩] ds i1 ∧
      Session (mkAll [exDecode]) ((mkIns [exDecode]).init (mkAll [exDecode]) (fun _ _ x => x))
        [⟨some [97, 255, 98], true, .file⟩] es i2 ∧
      (ds.map (fun d => d.bytes)).flatten ++ i1.pending.flatten = [1, 97] ∧
      (es.map (fun d => d.bytes)).flatten ++ i2.pending.flatten = [1, 97, 1, 98] := by
  refine ⟨_, _, _, _,
    mkAll_implements (by simp) (by intro p hp; simp at hp; subst hp; exact exDecode_wf)
      (by intro k hk; simp at hk),
    .cons (call_eval 40 (by decide +kernel)) (.cons (call_eval 40 (by decide +kernel)) (.nil _)),
    .cons (call_eval 40 (by decide +kernel)) (.nil _), by decide +kernel, by decide +kernel⟩

/-! ### C56: encoder tables with several-symbol patterns -/

/-- Encoder with a two-symbol pattern. -/
def exEncode2 : Phase := .encode [[([[1, 97]], [[97]]), ([[1, 98], [1, 99]], [[66]])]]

theorem exEncode2_wf : WfPhase exEncode2 := by
  refine ⟨by simp, ?_⟩
  intro R hR r hr
  simp only [List.mem_cons, List.not_mem_nil, or_false] at hR
  subst hR
  simp only [List.mem_cons, List.not_mem_nil, or_false] at hr
  rcases hr with rfl | rfl
  · refine ⟨by simp, ?_, by simp, ?_⟩ <;> intro d hd <;> simp at hd <;> subst hd <;>
      exact ⟨by simp, by intro b hb; simp at hb; omega⟩
  · refine ⟨by simp, ?_, by simp, ?_⟩ <;> intro d hd <;> simp at hd
    · rcases hd with rfl | rfl <;> exact ⟨by simp, by intro b hb; simp at hb; omega⟩
    · subst hd; exact ⟨by simp, by intro b hb; simp at hb; omega⟩

/-- C56 is false: after the symbols `b a`, where only `a` and `b c` are encodable, the encodable `a` is lost
together with the unencodable `b`, and only one error is counted
(/repo/src/libbsdconv.c:914-925 frees everything read so far). -/
theorem C56_encode_multi_violated :
    ∃ (d : Delivery) (i1 i2 : Ins Unit),
      Implements (mkAll [exEncode2]) [exEncode2] ∧
      Session (mkAll [exEncode2]) ((mkIns [exEncode2]).init (mkAll [exEncode2]) (fun _ _ x => x))
        [⟨some [1, 98], false, .file⟩, ⟨some [1, 97], true, .file⟩] [{ bytes := [], len := none }, d] i2 ∧
      d.bytes ++ i2.pending.flatten = [] ∧ i2.oerr = 1 ∧
      (pipeline [exEncode2] [[1, 98], [1, 97]]).flatten = [97] := by
  refine ⟨_, mkIns [], _,
    mkAll_implements (by simp) (by intro p hp; simp at hp; subst hp; exact exEncode2_wf)
      (by intro k hk; simp at hk),
    .cons (call_eval 40 (by decide +kernel)) (.cons (call_eval 40 (by decide +kernel)) (.nil _)),
    by decide +kernel, by decide +kernel, by decide +kernel⟩

/-! ### C12: flushing -/

/-- Nothing is waiting: every phase has read all its input and no phase waits for more. -/
def Settled (ins : Ins π) : Prop :=
  ∀ k, 1 ≤ k → k ≤ ins.phasen →
    (ins.ph (k - 1)).q.items.length ≤ (ins.ph k).curr ∧ (ins.ph k).fPending = false

theorem reach_done_inv (st : Nat → Static π) (c : Ins π × PC) (m : Nat) (c' : Ins π × PC)
    (h0 : c.2 ≠ .flushScan ∧ c.2 ≠ .done) (hr : run st m c = c') :
    (c'.2 = .flushScan → Idle c'.1) ∧
    (c'.2 = .done → Idle c'.1 ∧ (c'.1.flush = true → NoPending c'.1)) := by
  have key : ∀ m (c c' : Ins π × PC), ((c.2 = .flushScan → Idle c.1) ∧
      (c.2 = .done → Idle c.1 ∧ (c.1.flush = true → NoPending c.1))) → run st m c = c' →
      ((c'.2 = .flushScan → Idle c'.1) ∧ (c'.2 = .done → Idle c'.1 ∧ (c'.1.flush = true → NoPending c'.1))) := by
    intro m
    induction m with
    | zero => intro c c' h hr; cases hr; exact h
    | succ m ih =>
      intro c c' h hr
      refine ih (step st c) c' ?_ hr
      obtain ⟨ins, pc⟩ := c
      have hloc : pc.isLocal = true → ((step st (ins, pc)).2 = .flushScan → Idle (step st (ins, pc)).1) ∧
          ((step st (ins, pc)).2 = .done → Idle (step st (ins, pc)).1 ∧
            ((step st (ins, pc)).1.flush = true → NoPending (step st (ins, pc)).1)) := by
        intro hp
        have hne : (step st (ins, pc)).2 ≠ .flushScan ∧ (step st (ins, pc)).2 ≠ .done := by
          rw [step_local st ins pc hp]
          have hctl : ∀ l : Loc π, (localStep (st ins.pidx) pc l).2 ≠ .goto .flushScan ∧
              (localStep (st ins.pidx) pc l).2 ≠ .goto .done := by
            intro l
            cases pc <;> simp only [PC.isLocal, Bool.false_eq_true] at hp <;> simp only [localStep]
            all_goals
              simp only [fromOuter, fromInner, fromSw, fromDead, itOuter, interSw, interDead, toSw, toDead, itSep]
              repeat' split
              all_goals (constructor <;> intro h <;> simp at h)
          have := hctl ins.loc
          cases hh : (localStep (st ins.pidx) pc ins.loc).2 with
          | nextBegin => simp [after]
          | goto pc' =>
            rw [hh] at this
            simp only [after]
            exact ⟨fun h => this.1 (by rw [h]), fun h => this.2 (by rw [h])⟩
        exact ⟨fun h => absurd h hne.1, fun h => absurd h hne.2⟩
      cases pc with
      | done => exact h
      | ub => exact ⟨fun h => by simp [step] at h, fun h => by simp [step] at h⟩
      | begin =>
        simp only [step]
        split
        · refine ⟨fun h => ?_, fun h => ?_⟩ <;>
            (exfalso; revert h; cases (st ins.pidx).type <;> simp [PType.outer])
        · exact ⟨fun h => by simp at h, fun h => by simp at h⟩
      | leave => exact ⟨fun h => by simp [step] at h, fun h => by simp [step] at h⟩
      | checkBack =>
        cases hb : ins.findBack ins.phasen with
        | some k => simp only [step, hb]; exact ⟨fun h => by simp at h, fun h => by simp at h⟩
        | none =>
          simp only [step, hb]
          exact ⟨fun _ k h1 h2 => findBack_none hb k h1 h2, fun h => by simp at h⟩
      | flushScan =>
        have hi := h.1 rfl
        cases hf : ins.flush with
        | false =>
          simp only [step, hf]
          exact ⟨fun h => by simp at h, fun _ => ⟨hi, fun h => by simp [hf] at h⟩⟩
        | true =>
          cases hp : ins.findPending 1 ins.phasen with
          | some k =>
            simp only [step, hf, if_true, hp]
            refine ⟨fun h => ?_, fun h => ?_⟩ <;>
              (exfalso; revert h; cases (st k).type <;> simp [PType.dead])
          | none =>
            simp only [step, hf, if_true, hp]
            exact ⟨fun h => by simp at h,
              fun _ => ⟨hi, fun _ k h1 h2 => findPending_none hp k h1 (by
                have : k ≤ ins.phasen := h2
                omega)⟩⟩
      | _ => exact hloc rfl
  exact key m c c' ⟨fun h => absurd h h0.1, fun h => absurd h h0.2⟩ hr

theorem step_flush (st : Nat → Static π) (c : Ins π × PC) :
    (step st c).1.flush = c.1.flush ∧ (step st c).1.phasen = c.1.phasen := by
  obtain ⟨ins, pc⟩ := c
  cases pc <;> simp only [step]
  all_goals first
    | exact ⟨rfl, rfl⟩
    | exact ⟨trivial, trivial⟩
    | (split <;> first | exact ⟨rfl, rfl⟩ | (split <;> exact ⟨rfl, rfl⟩))

theorem run_flush (st : Nat → Static π) (m : Nat) (c : Ins π × PC) :
    (run st m c).1.flush = c.1.flush ∧ (run st m c).1.phasen = c.1.phasen := by
  induction m generalizing c with
  | zero => exact ⟨rfl, rfl⟩
  | succ m ih =>
    simp only [run]
    rw [(ih _).1, (ih _).2]
    exact step_flush st c

/-- C12.  When a call with `flush` returns - whatever the codecs, tables or callbacks, whatever the history
of the instance - every phase has read all data queued for it and no phase is waiting for more. -/
theorem C12_flush_settles (st : Nat → Static π) (ins ins' : Ins π) (a : Arg) (d : Delivery)
    (h : Call st ins a d ins') (hf : a.flush = true) : Settled ins' := by
  obtain ⟨m, ins1, h1, h2, h3⟩ := h
  have hinv := reach_done_inv st _ m _ (by simp [Ins.start]) h1
  obtain ⟨hi, hp⟩ := hinv.2 rfl
  subst h3
  have hp' := hp (by have := (run_flush st m (ins.start (a.input.map (fun x => (x, []))) a.flush)).1
                     rw [h1] at this; rw [this]; exact hf)
  intro k hk1 hk2
  have hk2' : k ≤ ins1.phasen := hk2
  have a1 := hi k hk1 hk2'
  have a2 := hp' k hk1 hk2'
  have e1 : (ins1.setLast (deliver a.mode (ins1.ph ins1.phasen).q (ins1.ph ins1.phasen).consumed).2).ph (k - 1)
      = ins1.ph (k - 1) := by
    have : ¬ k - 1 = ins1.phasen := by omega
    simp [Ins.setLast, this]
  rw [e1]
  simp only [Ins.setLast]
  split
  · exact ⟨by simpa using a1, a2⟩
  · exact ⟨by simpa using a1, a2⟩

/-- Non-vacuity: a flushed call that ends in the middle of the pattern `a c`. -/
example : ∃ d ins', Call (mkAll [exDecode]) ((mkIns [exDecode]).init (mkAll [exDecode]) (fun _ _ x => x))
    ⟨some [98, 97], true, .hold⟩ d ins' ∧ Settled ins' :=
  ⟨_, _, call_eval 40 (by decide +kernel), C12_flush_settles _ _ _ _ _ (call_eval 40 (by decide +kernel)) rfl⟩

end Verif.Props
