import Verif.Proofs.MkCompiled
import Verif.Proofs.MkSize
import Verif.Props.Engine

/-!
Properties C50-C52: the table compiler (/repo/src/bsdconv-mktable.c) and the reading of its images by the engine.

`build rs`       : the automaton the compiler builds from the rules of a file.
`image`, `emit`  : the file it writes, byte by byte, and the sequence of its writes.
`compiled π rs`  : the codec as the engine reads it from that file.
`meaning rs q`   : the specification (Spec/MkTable.lean), string by string.
-/

namespace Verif.Props
open Verif.Spec
open Verif.Engine hiding Datum step
open Verif.MkTable
open Verif.Spec.Table

variable {π : Type}

/-- The size of the compiled file. -/
def imageSize (rs : List Rule) : Nat := (emit (build rs)).offset

/-! ### C50 -/

/-- C50.  For every file of rules (with ranges, callbacks, `!`) without clashes, looking a string up through the bytes of the
compiled image follows a path exactly if a rule begins with the string; the state there tells whether a rule is for
the string, whether it can be extended, whether the rule is a callback; and its data are those of the rule in charge. -/
theorem C50_lookup (rs : List Rule) (hp : ∀ r ∈ rs, Plain r) (hcl : NoClash rs) (hsz : imageSize rs < 2 ^ 32)
    (hd : ∀ r ∈ rs, (datums r.dat).length ≤ 1024) (q : List Nat) (hq : q ≠ []) :
    match meaning rs q with
    | none => walk (compiled π rs) 0 q = none
    | some (st, d) => ∃ o, walk (compiled π rs) 0 q = some o ∧ (compiled π rs).status o = st ∧ (compiled π rs).data o = datums d :=
  compiled_lookup rs hp hcl hsz hd q hq

/-- If no rule is marked `!`, the first plain rule for a string is in charge of it, or else the first callback. -/
theorem C50_first (rs : List Rule) (h : ∀ r ∈ rs, r.ci = false) (q : List Nat) :
    best rs q = (rs.find? fun r => covers r q && !r.cb).or (rs.find? (covers · q)) :=
  best_plain_first rs h q

/-- Files without `!` and `?` have no clashes. -/
theorem C50_no_clash (rs : List Rule) (h : ∀ r ∈ rs, r.ci = false ∧ r.cb = false) : NoClash rs := noClash_plain rs h

/-- C50.  A file of plain rules is read back as exactly these rules (the first of several for the same string counts). -/
theorem C50_represents (S : Rules Nat (List Datum)) (hp : ∀ r ∈ S, r.1 ≠ [] ∧ ∀ c ∈ r.1, c ≤ 256)
    (hd : ∀ r ∈ S, (∀ d ∈ r.2, d ≠ [] ∧ IsBytes d) ∧ r.2.length ≤ 1024) (hsz : imageSize (lines S) < 2 ^ 32) :
    Represents (compiled π (lines S)) S :=
  compiled_represents S hp hd hsz

/-- C50, the size: a file whose patterns are single characters, `n` characters in all its patterns together, with at most
`D` characters of data in each rule, compiles to no more than `(n+1)·(1044+12D+D²)` bytes.  (So the bound of 4 GiB in the other
statements is met by every file of this kind that is not absurdly large: 600000 characters, data of 64.) -/
theorem C50_size (rs : List Rule) (D n : Nat) (hs : ∀ r ∈ rs, r.ci = false ∧ ∃ p : List Nat, r.pat = p.map fun c => (c, c))
    (hn : (rs.map fun r => r.pat.length).sum ≤ n) (hd : ∀ r ∈ rs, r.dat.length ≤ D) :
    imageSize rs ≤ (n + 1) * (1044 + 12 * D + D * D) := by
  have h1 := image_size rs D hd
  have h2 : ∀ l : List Rule, (∀ r ∈ l, r ∈ rs) → (l.map fun r => ruleNodes r.ci r.pat).sum ≤ (l.map fun r => r.pat.length).sum := by
    intro l
    induction l with
    | nil => intro _; simp
    | cons r l ih =>
      intro hl
      have ih := ih (fun x hx => hl x (by simp [hx]))
      obtain ⟨e1, p, e2⟩ := hs r (hl r (by simp))
      have := ruleNodes_single p
      simp only [List.map_cons, List.sum_cons]
      rw [e1, e2, List.length_map]
      omega
  have h3 := h2 rs (fun _ h => h)
  have hf : fileNodes rs ≤ n + 1 := by unfold fileNodes; omega
  exact Nat.le_trans h1 (Nat.mul_le_mul_right _ hf)

example : imageSize [{ pat := [(0x41, 0x41), (0x42, 0x42)], dat := [1, 0x61] }] ≤ 3 * (1044 + 24 + 4) :=
  C50_size _ 2 2 (fun r hr => by
    simp only [List.mem_cons, List.not_mem_nil, or_false] at hr; subst hr; exact ⟨rfl, [0x41, 0x42], rfl⟩) (by decide) (by decide)

/-! The whole way from rule files to converted text. -/

/-- The phase made of the compiled files of its tables. -/
def compilePhase : Phase → Static Unit
  | .decode Rs => ⟨.from_, fun j => compiled Unit (lines (Rs.getD j [])), Rs.length - 1⟩
  | .rewrite Rs => ⟨.inter, fun j => compiled Unit (lines (symbolRules (Rs.getD j []))), Rs.length - 1⟩
  | .encode Rs => ⟨.to_, fun j => compiled Unit (lines (symbolRules (Rs.getD j []))), Rs.length - 1⟩

/-- A table is small enough: its image is shorter than 4 GiB, each rule has at most 1024 data. -/
def SmallTable (S : Rules Nat (List Datum)) : Prop := imageSize (lines S) < 2 ^ 32 ∧ ∀ r ∈ S, r.2.length ≤ 1024

def SmallPhase : Phase → Prop
  | .decode Rs => ∀ R ∈ Rs, SmallTable R ∧ ∀ r ∈ R, IsBytes r.1
  | .rewrite Rs => ∀ R ∈ Rs, SmallTable (symbolRules R)
  | .encode Rs => ∀ R ∈ Rs, SmallTable (symbolRules R)

theorem symbols_le {ds : List Datum} (h : ∀ d ∈ ds, IsBytes d) : ∀ c ∈ symbols ds, c ≤ 256 := by
  induction ds with
  | nil => simp [symbols]
  | cons d ds ih =>
    cases ds with
    | nil => intro c hc; have := h d (by simp) c hc; omega
    | cons e ds =>
      intro c hc
      simp only [symbols, List.mem_append, List.mem_cons] at hc
      rcases hc with hc | rfl | hc
      · have := h d (by simp) c hc; omega
      · omega
      · exact ih (fun x hx => h x (by simp [hx])) c hc

theorem compilePhase_tables {p : Phase} (h : WfPhase p) (hs : SmallPhase p) : PhaseTables (compilePhase p) p := by
  have key : ∀ {α : Type} {Rs : List α}, Rs ≠ [] → Rs.length = Rs.length - 1 + 1 := by
    intro α Rs h
    have := List.length_pos_iff.2 h
    omega
  have sym : ∀ {Rs : List (Rules Datum (List Datum))} (_ : ∀ R ∈ Rs, ∀ r ∈ R, r.1 ≠ [] ∧
      (∀ d ∈ r.1, d ≠ [] ∧ IsBytes d) ∧ GoodData r.2) (_ : ∀ R ∈ Rs, SmallTable (symbolRules R)) (j : Nat) (hj : j < Rs.length),
      Represents (compiled Unit (lines (symbolRules (Rs.getD j [])))) (symbolRules Rs[j]) := by
    intro Rs h hs j hj
    rw [List.getD_eq_getElem?_getD, List.getElem?_eq_getElem hj]
    have hm := List.getElem_mem hj
    refine C50_represents _ ?_ ?_ (hs _ hm).1
    · intro r hr
      obtain ⟨r0, h0, rfl⟩ := List.mem_map.1 hr
      obtain ⟨k1, k2, _⟩ := h _ hm r0 h0
      exact ⟨symbols_ne k1 (fun d hd => (k2 d hd).1), symbols_le (fun d hd => (k2 d hd).2)⟩
    · intro r hr
      refine ⟨?_, (hs _ hm).2 r hr⟩
      obtain ⟨r0, h0, rfl⟩ := List.mem_map.1 hr
      exact (h _ hm r0 h0).2.2.2
  cases p with
  | decode Rs =>
    refine ⟨rfl, key h.1, ?_, h.2⟩
    intro j hj
    simp only [compilePhase]
    rw [List.getD_eq_getElem?_getD, List.getElem?_eq_getElem hj]
    have hm := List.getElem_mem hj
    refine C50_represents _ ?_ ?_ (hs _ hm).1.1
    · intro r hr
      exact ⟨(h.2 _ hm r hr).1, fun c hc => by have := (hs _ hm).2 r hr c hc; omega⟩
    · intro r hr
      exact ⟨(h.2 _ hm r hr).2.2, (hs _ hm).1.2 r hr⟩
  | rewrite Rs => exact ⟨rfl, key h.1, fun j hj => sym h.2 hs j hj, h.2⟩
  | encode Rs => exact ⟨rfl, key h.1, fun j hj => sym h.2 hs j hj, h.2⟩

/-- The conversion made of compiled files. -/
def compileAll (L : List Phase) (k : Nat) : Static Unit := compilePhase (nth L k)

theorem compileAll_implements {L : List Phase} (hne : L ≠ []) (h : ∀ p ∈ L, WfPhase p) (hs : ∀ p ∈ L, SmallPhase p)
    (halt : ∀ k (h : k + 1 < L.length), isDecode L[k] = true → isDecode L[k + 1] = false) :
    Implements (compileAll L) L := by
  refine ⟨hne, ?_, halt⟩
  intro k hk
  unfold compileAll
  rw [nth_eq hk]
  exact compilePhase_tables (h _ (List.getElem_mem hk)) (hs _ (List.getElem_mem hk))

/-- C50 with C05: a conversion whose codecs are the byte images compiled from rule files computes, for every sequence of
chunks, the composition of the longest-match rewritings by these rules. -/
theorem C50_conversion {L : List Phase} (hne : L ≠ []) (h : ∀ p ∈ L, WfPhase p) (hs : ∀ p ∈ L, SmallPhase p)
    (halt : ∀ k (h : k + 1 < L.length), isDecode L[k] = true → isDecode L[k + 1] = false)
    (ins : Ins Unit) (hn : ins.phasen = L.length)
    (as : List Arg) (a : Arg) (hflush : ∀ x ∈ as, x.flush = false) (hlast : a.flush = true)
    (hmode : ∀ x ∈ as ++ [a], x.mode ≠ .null) (hbytes : ∀ x ∈ as ++ [a], ∀ c ∈ x.input, IsBytes c)
    (input : List Datum) (hin : input = (as ++ [a]).filterMap (fun x => x.input)) (ht : Tame L input) :
    ∃ ds ins', Session (compileAll L) (ins.init (compileAll L) (fun _ _ x => x)) (as ++ [a]) ds ins' ∧
      (ds.map (fun d => d.bytes)).flatten ++ ins'.pending.flatten = (pipeline L input).flatten ∧
      ins'.ierr = ins.ierr + pipelineIn L input ∧ ins'.oerr = ins.oerr + pipelineOut L input := by
  obtain ⟨ds, ins', h1, h2, _, h4, h5⟩ :=
    C05_pipeline (compileAll_implements hne h hs halt) (fun _ _ x => x) ins hn as a hflush hlast hmode hbytes input hin ht
  exact ⟨ds, ins', h1, h2, h4, h5⟩

/-- The example conversion of C05, through compiled files. -/
example : ∃ ds ins', Session (compileAll exL) ((mkIns exL).init (compileAll exL) (fun _ _ x => x))
      ([] ++ [⟨some [97, 99, 63, 97, 98], true, .file⟩]) ds ins' ∧
      (ds.map (fun d => d.bytes)).flatten ++ ins'.pending.flatten = [195, 169, 66] ∧ ins'.ierr = 1 ∧ ins'.oerr = 0 := by
  have hs : ∀ p ∈ exL, SmallPhase p := by
    intro p hp
    simp only [exL, List.mem_cons, List.not_mem_nil, or_false] at hp
    rcases hp with rfl | rfl | rfl
    · intro R hR
      simp only [List.mem_cons, List.not_mem_nil, or_false] at hR
      subst hR
      refine ⟨⟨by decide +kernel, by decide⟩, ?_⟩
      unfold IsBytes; decide
    · intro R hR
      simp only [List.mem_cons, List.not_mem_nil, or_false] at hR
      subst hR
      exact ⟨by decide +kernel, by decide⟩
    · intro R hR
      simp only [List.mem_cons, List.not_mem_nil, or_false] at hR
      subst hR
      exact ⟨by decide +kernel, by decide⟩
  obtain ⟨ds, ins', h1, h2, h4, h5⟩ := C50_conversion (L := exL) (by simp [exL])
    (by intro p hp
        simp only [exL, List.mem_cons, List.not_mem_nil, or_false] at hp
        rcases hp with rfl | rfl | rfl
        · exact exDecode_wf
        · exact exRewrite_wf
        · exact exEncode_wf) hs
    (by intro k hk
        match k, hk with
        | 0, _ => intro _; rfl
        | 1, _ => intro h; simp [exL, isDecode, exRewrite] at h
        | k + 2, hk => simp [exL] at hk; omega)
    (mkIns exL) rfl []
    ⟨some [97, 99, 63, 97, 98], true, .file⟩ (by simp) rfl (by simp)
    (by intro x hx c hc; simp at hx; subst hx; simp at hc; subst hc; intro b hb; simp at hb; omega)
    [[97, 99, 63, 97, 98]] rfl exL_tame
  rw [exL_value.1] at h2
  rw [exL_value.2.1] at h4
  rw [exL_value.2.2] at h5
  exact ⟨ds, ins', h1, h2, h4, h5⟩

/-! Where the condition on clashes fails, so does the property. -/

/-- Three rules: a callback with two data shared by two strings … -/
def sharedRules : List Rule :=
  [{ pat := [(1, 1), (2, 2)], cb := true, dat := [7] }, { pat := [(3, 3)], cb := true, dat := [7] },
   { pat := [(1, 1), (2, 2)], cb := true, dat := [8] }]

/-- C50 violated: the callback states of rules with the same data are one state, so a later rule for one of the strings
changes the data of the other: the string `03`, whose only rule has the data 07, is found with 08. -/
theorem C50_shared_callback_violated : ∃ rs : List Rule, (∀ r ∈ rs, Plain r) ∧ imageSize rs < 2 ^ 32 ∧
    (∀ r ∈ rs, covers r [3] = true → r.dat = [7]) ∧ (∃ r ∈ rs, covers r [3] = true) ∧
    ∃ o, walk (compiled Unit rs) 0 [3] = some o ∧ (compiled Unit rs).data o = [[8]] := by
  refine ⟨sharedRules, ?_, by decide +kernel, by decide, by decide, ?_⟩
  · unfold Plain; decide
  · exact ⟨32, by decide +kernel, by decide +kernel⟩

/-- Rules: a callback for `01`, a rule for `0102`, a plain rule for `01`. -/
def overridden : List Rule :=
  [{ pat := [(1, 1)], cb := true, dat := [] }, { pat := [(1, 1), (2, 2)], dat := [7] }, { pat := [(1, 1)], dat := [8] }]

/-- C50 violated: a plain rule after a callback rule for the same string makes its state final, so the longer rule that
was there is never found by the engine, which stops at such a state. -/
theorem C50_override_violated : ∃ rs : List Rule, (∀ r ∈ rs, Plain r) ∧ imageSize rs < 2 ^ 32 ∧
    (∃ r ∈ rs, begins r [1] = true) ∧ ∃ o, walk (compiled Unit rs) 0 [1] = some o ∧ (compiled Unit rs).status o = .match_ := by
  refine ⟨overridden, ?_, by decide +kernel, by decide, ?_⟩
  · unfold Plain; decide
  · exact ⟨32, by decide +kernel, by decide +kernel⟩

/-- A file with a range, a callback, and rules of several lengths meets the conditions of C50. -/
def goodRules : List Rule :=
  [{ pat := [(0x81, 0x84), (0x30, 0x39)], cb := true, dat := [1] }, { pat := [(0x41, 0x41)], dat := [1, 0x41] },
   { pat := [(0x41, 0x41), (0x42, 0x42)], dat := [1, 0x41, 256, 1, 0x42] }, { pat := [(0x41, 0x41)], dat := [1, 0x43] }]

theorem goodRules_noClash : NoClash goodRules := by
  have hl : ∀ r q, covers r q = true → q.length = r.pat.length := fun r q h => Arena.within_length h
  have hnc : ∀ q, covers { pat := [(0x81, 0x84), (0x30, 0x39)], cb := true, dat := [1] } q = true →
      covers { pat := [(0x41, 0x41), (0x42, 0x42)], dat := [1, 0x41, 256, 1, 0x42] } q = true → False := by
    intro q h1 h2
    match q, h1, h2 with
    | [], h1, _ => simp [covers, within] at h1
    | c :: cs, h1, h2 =>
      simp [covers, within, symbolFits] at h1 h2
      omega
  refine List.Pairwise.cons ?_ (List.Pairwise.cons ?_ (List.Pairwise.cons ?_ (List.Pairwise.cons ?_ .nil)))
  · intro r hr q h1 h2
    simp only [List.mem_cons, List.not_mem_nil, or_false] at hr
    have e := hl _ _ h1
    rcases hr with rfl | rfl | rfl
    · have := hl _ _ h2; rw [e] at this; simp at this
    · exact (hnc q h1 h2).elim
    · have := hl _ _ h2; rw [e] at this; simp at this
  · intro r hr q h1 h2
    simp only [List.mem_cons, List.not_mem_nil, or_false] at hr
    have e := hl _ _ h1
    rcases hr with rfl | rfl
    · have := hl _ _ h2; rw [e] at this; simp at this
    · exact .inl ⟨rfl, Nat.le_refl _⟩
  · intro r hr q h1 h2
    simp only [List.mem_cons, List.not_mem_nil, or_false] at hr
    have e := hl _ _ h1
    subst hr
    have := hl _ _ h2; rw [e] at this; simp at this
  · intro r hr; simp at hr

example : ∃ o, walk (compiled Unit goodRules) 0 [0x41, 0x42] = some o ∧ (compiled Unit goodRules).status o = .match_ ∧
    (compiled Unit goodRules).data o = [[1, 0x41], [1, 0x42]] := by
  have h := C50_lookup (π := Unit) goodRules (by unfold Plain; decide) goodRules_noClash (by decide +kernel)
    (by intro r hr
        simp only [goodRules, List.mem_cons, List.not_mem_nil, or_false] at hr
        rcases hr with rfl | rfl | rfl | rfl <;> simp [datums])
    [0x41, 0x42] (by simp)
  have e : meaning goodRules [0x41, 0x42] = some (.match_, [1, 0x41, 256, 1, 0x42]) := by decide
  rw [e] at h
  simpa [datums] using h

/-! ### C51 -/

/-- C51.  For every automaton: no two writes of the compiler (state records, transition arrays, cells, bytes of data) touch
the same byte, and all of them lie within the file. -/
theorem C51_disjoint (A : Arena) :
    ((emit A).writes.map region).Pairwise Apart ∧ ∀ w ∈ (emit A).writes, w.1 + w.2.length ≤ (emit A).offset := by
  have h := (emit_spec A).lay.apart
  simp only [List.map_nil, List.append_nil] at h
  exact ⟨h, fun w hw => write_below A hw⟩

/-- C51.  So every byte that is written can be read back. -/
theorem C51_bytes (A : Arena) {o : Nat} {bs : List Nat} (h : (o, bs) ∈ (emit A).writes) {i : Nat} (hi : i < bs.length) :
    image A (o + i) = bs[i] := by
  have := image_in A h i hi
  simpa [hi] using this

/-- C51.  Reading the state at the offset of a state of the automaton of any rule file gives its status, its transitions
(as offsets of states; 0 is none) and its data. -/
theorem C51_states (rs : List Rule) (hp : ∀ r ∈ rs, Plain r) (hcl : NoClash rs) (hsz : imageSize rs < 2 ^ 32) {k : Nat} (hk : k < (build rs).count) :
    (compiled π rs).status (16 * k) = ((build rs).node k).status ∧
    (∀ c, (compiled π rs).next (16 * k) c = match ((build rs).node k).kids c with | some j => 16 * j | none => 0) ∧
    ((datums ((build rs).node k).data).length ≤ 1024 → (compiled π rs).data (16 * k) = datums ((build rs).node k).data) := by
  have hg := build_good rs hp hcl
  exact ⟨read_status hg hsz hk, read_next hg hsz hk, fun hd => read_data hg hsz hk hd⟩

example : (compiled Unit goodRules).status (16 * 1) = ((build goodRules).node 1).status :=
  (C51_states goodRules (by unfold Plain; decide) goodRules_noClash (by decide +kernel) (k := 1) (by decide +kernel)).1

/-! ### C52 -/

/-- ASCII letter case: the lower-case form of a byte. -/
def toLower (c : Nat) : Nat := if 0x41 ≤ c ∧ c ≤ 0x5A then c + 32 else c

/-- The file that consists of one rule marked `!`. -/
def ciRule (p : List Nat) (d : List Nat) : List Rule := [{ ci := true, pat := p.map fun c => (c, c), dat := d }]

/-- C52 violated: a rule marked `!` with the pattern `A` does not match `a`. -/
theorem C52_upper_violated : walk (compiled Unit (ciRule [0x41] [7])) 0 [0x61] = none ∧ toLower 0x41 = toLower 0x61 := by
  constructor
  · decide +kernel
  · rfl

/-- C52 violated: no pattern of one upper-case letter matches its lower-case letter. -/
theorem C52_all_upper_violated : ∀ c, 0x41 ≤ c → c ≤ 0x5A → walk (compiled Unit (ciRule [c] [7])) 0 [c + 32] = none := by
  intro c h1 h2
  have : ∀ i, i < 26 → walk (compiled Unit (ciRule [0x41 + i] [7])) 0 [0x41 + i + 32] = none := by decide +kernel
  have := this (c - 0x41) (by omega)
  rw [show 0x41 + (c - 0x41) = c by omega] at this
  exact this

/-- C52 violated: a rule marked `!` with the pattern `[` matches `a`, and one with the pattern `{` matches `[`. -/
theorem C52_bracket_violated :
    (walk (compiled Unit (ciRule [0x5B] [7])) 0 [0x61]).isSome = true ∧ (walk (compiled Unit (ciRule [0x7B] [7])) 0 [0x5B]).isSome = true := by
  constructor <;> decide +kernel

/-- C52 violated: `!61`, `4142`, `41`: the exact rule for `A` replaces the folded one and makes the state final, so `AB` is
not found any more by the engine. -/
theorem C52_override_violated : ∃ rs : List Rule, (∃ r ∈ rs, begins r [0x41] = true) ∧
    ∃ o, walk (compiled Unit rs) 0 [0x41] = some o ∧ (compiled Unit rs).status o = .match_ := by
  refine ⟨[{ ci := true, pat := [(0x61, 0x61)], dat := [1] }, { pat := [(0x41, 0x41), (0x42, 0x42)], dat := [2] },
    { pat := [(0x41, 0x41)], dat := [3] }], by decide, 16, by decide +kernel, by decide +kernel⟩

theorem fits_single (p q : List Nat) (h : ∀ c ∈ p, c ≤ 256 ∧ ¬ (0x41 ≤ c ∧ c ≤ 0x5B) ∧ c ≠ 0x7B) :
    within true (p.map fun c => (c, c)) q = true ↔ q.map toLower = p := by
  induction p generalizing q with
  | nil => cases q <;> simp [within]
  | cons c p ih =>
    cases q with
    | nil => simp [within]
    | cons d q =>
      have hc := h c (by simp)
      simp only [List.map_cons, within, Bool.and_eq_true, List.cons.injEq]
      rw [ih q (fun x hx => h x (by simp [hx]))]
      refine and_congr_left fun _ => ?_
      have e : (symbolFits true (c, c) d = true) ↔ ((c ≤ d ∧ d ≤ c) ∨ (ciTable d ≠ 0 ∧ c ≤ ciTable d ∧ ciTable d ≤ c)) := by
        simp [symbolFits]
      rw [e]
      unfold ciTable toLower
      by_cases h1 : d = 0x61
      · subst h1
        simp; omega
      · rw [if_neg h1]
        by_cases h2 : 0x41 ≤ d ∧ d ≤ 0x5B
        · rw [if_pos h2]
          by_cases h3 : d = 0x5B
          · subst h3; simp; omega
          · rw [if_pos (by omega)]; omega
        · rw [if_neg h2, if_neg (by omega)]; omega

/-- C52, partial: a file with one rule marked `!` whose pattern has no upper-case letter, no `[` and no `{`: the strings of
the pattern's length that are found are those equal to it up to letter case, and they have the rule's data.  (Patterns
with upper-case letters do not work, see above.) -/
theorem C52_lower_partial (p d : List Nat) (hp : p ≠ []) (h : ∀ c ∈ p, c ≤ 256 ∧ ¬ (0x41 ≤ c ∧ c ≤ 0x5B) ∧ c ≠ 0x7B)
    (hsz : imageSize (ciRule p d) < 2 ^ 32) (hd : (datums d).length ≤ 1024) (q : List Nat) (hq : q.length = p.length) :
    if q.map toLower = p then
      ∃ o, walk (compiled π (ciRule p d)) 0 q = some o ∧ (compiled π (ciRule p d)).status o = .match_ ∧ (compiled π (ciRule p d)).data o = datums d
    else walk (compiled π (ciRule p d)) 0 q = none := by
  have hne : q ≠ [] := by
    rintro rfl
    exact hp (List.eq_nil_of_length_eq_zero hq.symm)
  have hk := C50_lookup (π := π) (ciRule p d)
    (by intro r hr
        simp only [ciRule, List.mem_singleton] at hr
        subst hr
        refine ⟨by simpa using hp, ?_⟩
        intro b hb
        obtain ⟨c, hc, rfl⟩ := List.mem_map.1 hb
        exact (h c hc).1)
    (List.pairwise_singleton _ _) hsz
    (by intro r hr
        simp only [ciRule, List.mem_singleton] at hr
        subst hr
        exact hd) q hne
  have hbg : (ciRule p d).any (begins · q) = false := by
    simp [ciRule, begins, hq]
  have hf := fits_single p q h
  unfold meaning at hk
  rw [hbg] at hk
  by_cases e : q.map toLower = p
  · rw [if_pos e]
    have : best (ciRule p d) q = some { ci := true, pat := p.map fun c => (c, c), dat := d } := by
      have hc : covers { ci := true, pat := p.map fun c => (c, c), dat := d } q = true := hf.2 e
      simp [best, ciRule, better, hc]
    rw [this] at hk
    exact hk
  · rw [if_neg e]
    have : best (ciRule p d) q = none := by
      have hc : ¬ covers { ci := true, pat := p.map fun c => (c, c), dat := d } q = true := fun x => e (hf.1 x)
      simp [best, ciRule, better, hc]
    rw [this] at hk
    exact hk

/-- `&QUOT;` is found by the rule for `&quot;`. -/
example : ∃ o, walk (compiled Unit (ciRule [0x26, 0x71, 0x75, 0x6F, 0x74, 0x3B] [1, 0x22])) 0 [0x26, 0x51, 0x55, 0x4F, 0x54, 0x3B] = some o ∧
    (compiled Unit (ciRule [0x26, 0x71, 0x75, 0x6F, 0x74, 0x3B] [1, 0x22])).status o = .match_ := by
  have := C52_lower_partial (π := Unit) [0x26, 0x71, 0x75, 0x6F, 0x74, 0x3B] [1, 0x22] (by simp) (by decide) (by decide +kernel) (by simp [datums])
    [0x26, 0x51, 0x55, 0x4F, 0x54, 0x3B] rfl
  rw [if_pos (by decide)] at this
  obtain ⟨o, h1, h2, _⟩ := this
  exact ⟨o, h1, h2⟩

end Verif.Props
