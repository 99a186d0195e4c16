import Verif.Proofs.Solve
import Verif.Proofs.TableMap
import Verif.Props.Inter
/-
C86: looking up an alias by a conversion.
-/
namespace Verif.Props
open Verif.Spec
open Verif.Engine hiding Datum step
open Verif.Solve

variable {π : Type}

/-- `st` and `ins` are the conversion `ASCII:ALIAS-x,COUNT#ERR:ASCII` with a table of these rows, the last of them being a row `name ?` if `call` is set. -/
structure AliasLookup (st : Nat → Static π) (ip : Nat → Nat → π → π) (ins : Ins π) (e : Lens π Nat) (rows : Rows) (call : Option (List Nat × List Nat)) : Prop where
  phases : ins.phasen = 3
  first : PhaseTables (st 1) (.decode [Ascii.fromRules])
  third : PhaseTables (st 3) (.encode [Ascii.toRules])
  isInter : (st 2).type = .inter
  two : (st 2).codecn = 1
  count : ∀ i, 1 ≤ i → (st 2).codecs i = Inter.plain e (Inter.count none)
  table : match call with
    | none => Represents ((st 2).codecs 0) (symbolRules (aliasRules rows))
    | some r => ∃ c' alt, Represents c' (symbolRules (aliasRules (rows ++ [r]))) ∧ CallRow ((st 2).codecs 0) c' alt (charData r.2)
  zero : e.get (initPriv st ip ins 2 1) = 0

/-- The counter ERR. -/
def errCount (e : Lens π Nat) (ins : Ins π) : Nat := e.get ((ins.ph 2).priv 1)

/-- All names and definitions are non-empty strings of ASCII characters. -/
def AsciiRows (rows : Rows) : Prop := ∀ r ∈ rows, r.1 ≠ [] ∧ r.2 ≠ [] ∧ ∀ b ∈ r.1 ++ r.2, 1 ≤ b ∧ b < 128

theorem decode_ascii : ∀ s : List Nat, dropMisses (Spec.tokens [Ascii.fromRules] s) = charData (asciiPart s)
  | [] => by simp [dropMisses, charData, asciiPart]
  | b :: s => by
    have hlen : ∀ p d, lookup Ascii.fromRules p = some d → p.length = 1 := by
      intro p d h
      obtain ⟨c, _, _, rfl, _⟩ := (fromAscii_lookup p d).1 h
      rfl
    have hl : longest Ascii.fromRules (b :: s) = (lookup Ascii.fromRules [b]).map fun d => (1, d) := by
      cases hc : longest Ascii.fromRules (b :: s) with
      | none =>
        have := longestUpTo_none.1 hc 1 (by omega) (by simp)
        simp only [List.take_succ_cons, List.take_zero] at this
        rw [this]; rfl
      | some x =>
        obtain ⟨m, d⟩ := x
        obtain ⟨g1, g2, g3, g4⟩ := longestUpTo_some hc
        have := hlen _ _ g3
        rw [List.length_take] at this
        obtain rfl : m = 1 := by omega
        simp only [List.take_succ_cons, List.take_zero] at g3
        rw [g3]; rfl
    have hf : firstMatch [Ascii.fromRules] (b :: s) = (lookup Ascii.fromRules [b]).map fun d => (1, d) := by
      simp only [firstMatch, hl]
      cases lookup Ascii.fromRules [b] <;> rfl
    by_cases hb : 1 ≤ b ∧ b < 128
    · have hk := (fromAscii_lookup [b] [[1, b]]).2 ⟨b, hb.1, hb.2, rfl, rfl⟩
      rw [hk] at hf
      rw [tokens_hit hf]
      simp only [List.drop_succ_cons, List.drop_zero, dropMisses, decode_ascii s]
      have e : asciiPart (b :: s) = b :: asciiPart s := List.filter_cons_of_pos (by simpa using hb)
      rw [e]
      rfl
    · have hk : lookup Ascii.fromRules [b] = none := by
        cases hc : lookup Ascii.fromRules [b] with
        | none => rfl
        | some d =>
          obtain ⟨c, h1, h2, h3, _⟩ := (fromAscii_lookup [b] d).1 hc
          simp only [List.cons.injEq, and_true] at h3
          subst h3
          exact absurd ⟨h1, h2⟩ hb
      rw [hk] at hf
      rw [tokens_miss hf]
      simp only [dropMisses, decode_ascii s]
      have e : asciiPart (b :: s) = asciiPart s := List.filter_cons_of_neg (by simpa using hb)
      rw [e]

theorem encode_ascii : ∀ s : List Nat, (∀ b ∈ s, 1 ≤ b ∧ b < 128) → dropMisses (Spec.tokens [Ascii.toRules] (charData s)) = s.map fun b => [b]
  | [], _ => by simp [dropMisses, charData]
  | b :: s, h => by
    have ho : OneAt Ascii.toRules [1, b] := by
      intro r hr h0
      have h1 := toAscii_good.2 r hr
      match r.1, h0, h1 with
      | [d], h0, _ => simpa using h0
      | d :: d' :: ds, _, h1 => simp at h1
    have hl := longest_one ho (charData s)
    rw [toAscii_lookup b (h b (by simp)).1 (h b (by simp)).2] at hl
    have hf : firstMatch [Ascii.toRules] (charData (b :: s)) = some (1, [[b]]) := by
      have e : charData (b :: s) = [1, b] :: charData s := rfl
      simp only [firstMatch, e, hl, Option.map_some]
    rw [tokens_hit hf]
    have e : (charData (b :: s)).drop 1 = charData s := rfl
    rw [e]
    simp only [dropMisses, encode_ascii s (fun x hx => h x (by simp [hx])), List.map_cons]
    rfl

/-- What COUNT does with a datum. -/
def counting (e : Lens π Nat) (t : π) (d : List Nat) : π × List (List Nat) := (e.put (e.get t + 1) t, [d])

theorem alias_phase (e : Lens π Nat) : ∀ (ts : List (Tok Nat (List Nat))) (x : π),
    mixOut (counting e) x (ts.map dataTok) = charData (passMisses ts) ∧
    e.get (mixEnd (counting e) x (ts.map dataTok)) = e.get x + misses ts
  | [], x => ⟨rfl, rfl⟩
  | .hit b :: ts, x => by
    obtain ⟨h1, h2⟩ := alias_phase e ts x
    simp only [List.map_cons, dataTok, mixOut, mixEnd, h1, h2, passMisses, misses]
    exact ⟨by simp [charData], trivial⟩
  | .miss a :: ts, x => by
    obtain ⟨h1, h2⟩ := alias_phase e ts (e.put (e.get x + 1) x)
    simp only [List.map_cons, dataTok, mixOut, mixEnd, counting, passMisses, misses] at h1 h2 ⊢
    rw [h1, h2, e.get_put]
    exact ⟨rfl, by omega⟩

theorem aliasRules_good {rows : Rows} (h : AsciiRows rows) : GoodRules (aliasRules rows) := by
  intro r hr
  obtain ⟨r0, h0, rfl⟩ := List.mem_map.1 hr
  obtain ⟨a, b, c⟩ := h r0 h0
  have g : ∀ s : List Nat, (∀ x ∈ s, x < 128) → ∀ d ∈ charData s, d ≠ [] ∧ IsBytes d := by
    intro s hs d hd
    obtain ⟨x, hx, rfl⟩ := List.mem_map.1 hd
    exact ⟨by simp, bytes2 (by omega) (by have := hs x hx; omega)⟩
  exact ⟨by simpa [charData] using a, g _ (fun x hx => (c x (by simp [hx])).2), by simpa [charData] using b, g _ (fun x hx => (c x (by simp [hx])).2)⟩

/-- The middle phase. -/
def aliasProc (e : Lens π Nat) (rows : Rows) (p : Nat → π) : Proc π where
  out := fun ds => mixOut (counting e) (p 1) (Spec.tokens [aliasRules rows] (nonEmpty ds))
  fin := fun ds q => q = setPriv p 1 (mixEnd (counting e) (p 1) (Spec.tokens [aliasRules rows] (nonEmpty ds)))
  ok := fun ds => ∀ d ∈ nonEmpty ds, Small d

theorem pass_drop : ∀ {ts : List (Tok Nat (List Nat))}, misses ts = 0 → passMisses ts = dropMisses ts
  | [], _ => rfl
  | .hit b :: ts, h => by simp only [passMisses, dropMisses, pass_drop (ts := ts) h]
  | .miss a :: ts, h => by simp [misses] at h

theorem pass_ascii {rows : Rows} (hr : AsciiRows rows) : ∀ (n : Nat) (s : List Nat), s.length ≤ n → (∀ b ∈ s, 1 ≤ b ∧ b < 128) →
    ∀ b ∈ passMisses (Spec.tokens [rows] s), 1 ≤ b ∧ b < 128 := by
  intro n
  induction n with
  | zero =>
    intro s h
    obtain rfl : s = [] := List.length_eq_zero_iff.1 (by omega)
    simp [passMisses]
  | succ n ih =>
    intro s h hs
    cases s with
    | nil => simp [passMisses]
    | cons a s =>
      cases hm : firstMatch [rows] (a :: s) with
      | none =>
        rw [tokens_miss hm]
        intro b hb
        rcases List.mem_cons.1 hb with rfl | hb
        · exact hs _ (by simp)
        · exact ih s (by simpa using h) (fun x hx => hs x (by simp [hx])) b hb
      | some x =>
        obtain ⟨k, d⟩ := x
        obtain ⟨h1, h2⟩ := firstMatch_pos hm
        rw [tokens_hit hm]
        intro b hb
        rcases List.mem_append.1 hb with hb | hb
        · have : longest rows (a :: s) = some (k, d) := by
            simp only [firstMatch] at hm
            cases hc : longest rows (a :: s) with
            | none => rw [hc] at hm; simp at hm
            | some y => rw [hc] at hm; simpa using hm
          exact (hr _ (Verif.Spec.lookup_mem (longest_some this).2.2)).2.2 b (by simp [hb])
        · exact ih _ (by simp only [List.length_drop, List.length_cons] at h ⊢; omega) (fun x hx => hs x (List.mem_of_mem_drop hx)) b hb

/-- The middle phase, whether or not the table has a row with a callback. -/
theorem alias_real {st : Nat → Static π} {ip : Nat → Nat → π → π} {ins : Ins π} {e : Lens π Nat} {rows : Rows} {call : Option (List Nat × List Nat)}
    (h : AliasLookup st ip ins e rows call) (hr : AsciiRows (rows ++ call.toList)) (p : Nat → π) :
    Realises (st 2) (fun q => q = p) (aliasProc e (rows ++ call.toList) p) := by
  have base : ∀ (s : Static π), s.type = .inter → s.codecn = 1 → Represents (s.codecs 0) (symbolRules (aliasRules (rows ++ call.toList))) →
      s.codecs 1 = Inter.plain e (Inter.count none) →
      Realises s (fun q => q = p)
        { out := fun ds => mixOut (counting e) (p 1) (Spec.tokens [aliasRules (rows ++ call.toList)] (nonEmpty ds))
          fin := fun ds q => q = setPriv p 1 (mixEnd (counting e) (p 1) (Spec.tokens [aliasRules (rows ++ call.toList)] (nonEmpty ds))) } := by
    intro s h1 h2 h3 h4
    have hm : MPhase false s [aliasRules (rows ++ call.toList)] (counting e) := by
      refine ⟨h1, by simp [h2], by omega, ⟨by simp, ?_, ?_⟩, ?_, ?_⟩
      · intro j hj
        obtain rfl : j = 0 := by simpa using hj
        exact h3
      · intro j hj
        obtain rfl : j = 0 := by simpa using hj
        exact aliasRules_good hr
      · rw [h2]
        exact any_member (fl := none) (by rw [h1]; simp) (h4.trans rfl) (.inr ⟨rfl, fun _ => rfl⟩)
      · intro t d _ hd x hx
        simp only [counting, List.mem_singleton] at hx
        exact hx ▸ hd
    have := mix_realises hm p
    rw [h2] at this
    exact this
  have ht := h.table
  cases call with
  | none => exact (base _ h.isInter h.two (by simpa using ht) (h.count 1 (Nat.le_refl _))).as rfl (fun _ _ _ => trivial) (fun _ _ _ => ⟨rfl, rfl, rfl, fun _ h => h⟩)
  | some r =>
    obtain ⟨c', alt, h1, h2⟩ := ht
    have hp : CallPhase (st 2) { st 2 with codecs := fun i => if i = 0 then c' else (st 2).codecs i } 0 alt (charData r.2) := by
      refine ⟨h.isInter, h.isInter, rfl, by simpa using h2, ?_, ?_, ?_⟩
      · intro i hi; simp [hi]
      · intro i hi l hl
        simp only [if_neg hi, h.count i (by omega)]
        subst hl
        exact ⟨rfl, rfl⟩
      · intro i hi
        simp only [if_neg hi, h.count i (by omega)]
        rfl
    refine (call_realises hp (base { st 2 with codecs := fun i => if i = 0 then c' else (st 2).codecs i } h.isInter h.two (by simpa using h1) ?_)).as rfl
      (fun _ _ k => ⟨trivial, k⟩) (fun _ _ _ => ⟨rfl, rfl, rfl, fun _ h => h⟩)
    simpa using h.count 1 (Nat.le_refl _)

/-- C86.  For every name: the lookup returns; it returns a text exactly if the ASCII characters of the name, in upper case, fall into names of the table
(the longest each time), and then the sequence of their definitions; else nothing. -/
theorem C86_lookup {st : Nat → Static π} {ip : Nat → Nat → π → π} {ins : Ins π} {e : Lens π Nat} {rows : Rows} {call : Option (List Nat × List Nat)}
    (h : AliasLookup st ip ins e rows call) (hr : AsciiRows (rows ++ call.toList)) (hk : Keyed (rows ++ call.toList)) (name : List Nat) (hb : ∀ b ∈ name, b < 256) :
    ∃ res, Looked st ip ins (errCount e) name res ∧ (∀ res', Looked st ip ins (errCount e) name res' → res' = res) ∧
      ∀ t, res = some t ↔ Resolves (rows ++ call.toList) (asciiPart (upperBytes name)) t := by
  have hch : Converts st ip ins [Phase.proc π (.decode [Ascii.fromRules]), aliasProc e (rows ++ call.toList) (initPriv st ip ins 2), Phase.proc π (.encode [Ascii.toRules])] := by
    refine chain_converts ⟨by simp, ?_, ?_⟩ (by simp [h.phases])
    · intro k hk
      match k, hk with
      | 0, _ => exact table_realises h.first _
      | 1, _ => exact alias_real h hr _
      | 2, _ => exact table_realises h.third _
    · intro k hk
      match k, hk with
      | 0, _ => exact fun _ => rfl
      | 1, _ => exact fun _ => rfl
  have hup : IsBytes (upperBytes name) := by
    intro b hb'
    obtain ⟨x, hx, rfl⟩ := List.mem_map.1 hb'
    have := hb x hx
    split <;> omega
  have hne : ∀ s : List Nat, nonEmpty (charData s) = charData s := by
    intro s
    refine List.filter_eq_self.2 ?_
    intro d hd
    obtain ⟨x, _, rfl⟩ := List.mem_map.1 hd
    rfl
  have f1 : (Phase.proc π (.decode [Ascii.fromRules])).out [upperBytes name] = charData (asciiPart (upperBytes name)) := by
    simp only [Phase.proc, Phase.out, List.flatten_cons, List.flatten_nil, List.append_nil, decode_ascii]
  have f2 : (aliasProc e (rows ++ call.toList) (initPriv st ip ins 2)).out (charData (asciiPart (upperBytes name))) =
      charData (passMisses (Spec.tokens [rows ++ call.toList] (asciiPart (upperBytes name)))) := by
    simp only [aliasProc, hne, tokens_alias _ _ _ (Nat.le_refl _), (alias_phase e _ _).1]
  obtain ⟨ds, ins', k1, k2, _, _, _, k6⟩ := hch [] ⟨some (upperBytes name), true, .automalloc 1⟩ (by simp) rfl (by simp) (by simpa using hup) [upperBytes name] rfl (by
    refine ⟨.inr (by simp), trivial, rfl, ?_, rfl, .inr ?_, trivial⟩
    · rw [f1]
      intro d hd
      rw [hne] at hd
      obtain ⟨x, _, rfl⟩ := List.mem_map.1 hd
      exact ⟨x, rfl⟩
    · exact toAscii_good.2)
  simp only [runProcs, f1, f2] at k2
  have k3 := k6 1 (by simp)
  simp only [List.getElem_cons_succ, List.getElem_cons_zero, List.take_succ_cons, List.take_zero,
    runProcs, f1] at k3
  cases k1 with
  | cons hc hn =>
    cases hn
    rename_i d
    have hpend : ins'.pending = [] := by
      obtain ⟨m, i1, _, _, rfl⟩ := hc
      simp [Ins.pending, Ins.setLast, deliver, Queue.empty]
    have herr : errCount e ins' = misses (Spec.tokens [rows ++ call.toList] (asciiPart (upperBytes name))) := by
      simp only [aliasProc, hne, tokens_alias _ _ _ (Nat.le_refl _)] at k3
      rw [errCount, k3, setPriv_same, (alias_phase e _ _).2, h.zero, Nat.zero_add]
    rw [hpend] at k2
    simp only [List.map_cons, List.map_nil, List.flatten_cons, List.flatten_nil, List.append_nil, Phase.proc, Phase.out, hne] at k2
    refine ⟨_, ⟨_, _, hc, rfl⟩, ?_, ?_⟩
    · rintro res' ⟨d', i2, hc', rfl⟩
      obtain ⟨rfl, rfl⟩ := hc.unique hc'
      rfl
    · intro t
      rw [resolves_tokens hk, herr]
      by_cases hz : misses (Spec.tokens [rows ++ call.toList] (asciiPart (upperBytes name))) = 0
      · rw [hz, if_neg (by simp), k2, encode_ascii]
        · have fl : ∀ s : List Nat, (s.map fun b => [b]).flatten = s := by
            intro s
            induction s with
            | nil => rfl
            | cons b s ih => simp only [List.map_cons, List.flatten_cons, ih, List.cons_append, List.nil_append]
          rw [pass_drop hz, fl]
          simp
        · exact pass_ascii hr _ _ (Nat.le_refl _) (fun b hb => by simpa using (List.mem_filter.1 hb).2)
      · rw [if_pos (by omega)]
        simp [hz]


/-! ### Automata with a callback -/

/-- The automaton of the table `S` with a callback at the end of the pattern `P`. -/
def callTrie (S : Rules Nat (List (List Nat))) (P : List Nat) (b : List (List Nat)) : Codec π :=
  { (trieCodec S : Codec π) with
    status := fun o => if o = (prefixes S).idxOf P + 1 then .subroutine else (trieCodec S : Codec π).status o
    conv := fun l => { l with ph := { l.ph with q := l.ph.q.pushAll b, status := .nextphase } } }

theorem trie_plain (S : Rules Nat (List (List Nat))) (o : Nat) :
    (trieCodec S : Codec π).status o ≠ .subroutine ∧ (trieCodec S : Codec π).status o ≠ .submatchSubroutine := by
  simp only [trieCodec]
  split
  · simp
  · unfold nodeStatus
    split
    · simp
    · split <;> simp

theorem callTrie_row {S : Rules Nat (List (List Nat))} {P : List Nat} {b : List (List Nat)} {x : Nat} (hl : lookup S (P ++ [x]) = some b)
    (he : extendable S (P ++ [x]) = false) (h1 : x ≠ 1) (h2 : x ≠ 256) :
    CallRow (callTrie S (P ++ [x]) b : Codec π) (trieCodec S) ((prefixes S).idxOf (P ++ [x]) + 1) b := by
  have hm : P ++ [x] ∈ prefixes S := (mem_prefixes (by simp)).2 ⟨_, Verif.Spec.lookup_mem hl, List.prefix_rfl⟩
  have hg := getD_idxOf hm
  refine ⟨rfl, ?_, ?_, ?_, fun _ _ => rfl, ?_, fun _ => rfl, ?_, by simp, trie_plain S, rfl, rfl⟩
  · intro o ho
    simp only [callTrie, if_neg ho]
  · simp only [callTrie, if_true]
  · simp only [trieCodec, Nat.add_sub_cancel]
    rw [if_neg (by omega), hg]
    simp only [nodeStatus, hl, he]
    rfl
  · simp only [trieCodec, Nat.add_sub_cancel]
    rw [hg, hl]
    rfl
  · intro st y hn
    obtain ⟨p, hp⟩ : ∃ p, (if st = 0 then [] else (prefixes S).getD (st - 1) []) = p := ⟨_, rfl⟩
    rw [trie_next S st y hp] at hn
    split at hn
    · rename_i hy
      have h3 := getD_idxOf hy
      have h4 : (prefixes S).idxOf (p ++ [y]) = (prefixes S).idxOf (P ++ [x]) := by omega
      rw [h4, hg] at h3
      have := List.append_inj_right' h3 rfl
      simp only [List.cons.injEq, and_true] at this
      subst this
      exact ⟨h1, h2⟩
    · omega


/-! ### What the lookup finds -/

section
variable {st : Nat → Static π} {ip : Nat → Nat → π → π} {ins : Ins π} {e : Lens π Nat} {rows : Rows} {call : Option (List Nat × List Nat)}

theorem upper_bytes {name : List Nat} (h : ∀ b ∈ upperBytes name, 1 ≤ b ∧ b < 128) : ∀ b ∈ name, b < 256 := by
  intro b hb
  have := h _ (List.mem_map.2 ⟨b, hb, rfl⟩)
  split at this <;> omega

theorem ascii_self {s : List Nat} (h : ∀ b ∈ s, 1 ≤ b ∧ b < 128) : asciiPart s = s :=
  List.filter_eq_self.2 (fun b hb => by simpa using h b hb)

theorem upper_ascii (s : List Nat) : asciiPart (upperBytes s) = upperBytes (asciiPart s) := by
  induction s with
  | nil => rfl
  | cons b s ih =>
    simp only [asciiPart, upperBytes, List.map_cons, List.filter_cons, decide_eq_true_eq] at ih ⊢
    by_cases hb : 1 ≤ b ∧ b < 128
    · rw [if_pos hb, if_pos (by split <;> omega), List.map_cons, ih]
    · rw [if_neg hb, if_neg (by split <;> omega), ih]

/-- C86.  Every alias of the table is found under its name in any mixture of cases, and yields its definition. -/
theorem C86_alias (h : AliasLookup st ip ins e rows call) (hr : AsciiRows (rows ++ call.toList)) (hk : Keyed (rows ++ call.toList)) {a d : List Nat}
    (hm : (a, d) ∈ rows ++ call.toList) (name : List Nat) (hn : upperBytes name = a) : Looked st ip ins (errCount e) name (some d) := by
  obtain ⟨h1, _, h3⟩ := hr _ hm
  have ha : ∀ b ∈ a, 1 ≤ b ∧ b < 128 := fun b hb => h3 b (by simp [hb])
  obtain ⟨res, g1, _, g3⟩ := C86_lookup h hr hk name (upper_bytes (by rw [hn]; exact ha))
  have := (g3 d).2 (by
    rw [hn, ascii_self ha]
    have := Resolves.cons hm h1 (fun r _ hp => by simpa using hp.length_le) Resolves.nil
    simpa using this)
  rwa [this] at g1

/-- C86.  A name whose ASCII characters begin with no alias is not found. -/
theorem C86_unknown (h : AliasLookup st ip ins e rows call) (hr : AsciiRows (rows ++ call.toList)) (hk : Keyed (rows ++ call.toList)) (name : List Nat)
    (hb : ∀ b ∈ name, b < 256) (hne : asciiPart name ≠ []) (hno : ∀ r ∈ rows ++ call.toList, ¬r.1 <+: upperBytes (asciiPart name)) :
    Looked st ip ins (errCount e) name none := by
  obtain ⟨res, g1, _, g3⟩ := C86_lookup h hr hk name hb
  cases res with
  | none => exact g1
  | some t =>
    have := (g3 t).1 rfl
    rw [upper_ascii] at this
    generalize hs : upperBytes (asciiPart name) = s at this hno
    cases this with
    | nil => exact absurd (by simpa [upperBytes] using hs) hne
    | cons k1 _ _ _ => exact absurd (List.prefix_append _ _) (hno _ k1)

/-- C86.  What is found has no other characters than the definitions: it is a sequence of definitions of aliases, and the ASCII characters of the name are the
sequence of their names. -/
theorem C86_found (h : AliasLookup st ip ins e rows call) (hr : AsciiRows (rows ++ call.toList)) (hk : Keyed (rows ++ call.toList)) (name : List Nat)
    (hb : ∀ b ∈ name, b < 256) (t : List Nat) (hl : Looked st ip ins (errCount e) name (some t)) :
    ∃ l : Rows, (∀ r ∈ l, r ∈ rows ++ call.toList) ∧ (l.map (·.1)).flatten = upperBytes (asciiPart name) ∧ (l.map (·.2)).flatten = t := by
  obtain ⟨res, g1, g2, g3⟩ := C86_lookup h hr hk name hb
  have := (g3 t).1 (g2 _ hl).symm
  rw [upper_ascii] at this
  generalize upperBytes (asciiPart name) = s at this
  clear hl g3 g2 g1
  induction this with
  | nil => exact ⟨[], by simp, rfl, rfl⟩
  | @cons a d s t h1 _ _ _ ih =>
    obtain ⟨l, i1, i2, i3⟩ := ih
    refine ⟨(a, d) :: l, ?_, by simp [i2], by simp [i3]⟩
    intro r hr
    rcases List.mem_cons.1 hr with rfl | hr
    · exact h1
    · exact i1 r hr

/-- C86 is false of the code in that the empty name is found in every table, as the empty text. -/
theorem C86_empty_violated (h : AliasLookup st ip ins e rows call) (hr : AsciiRows (rows ++ call.toList)) (hk : Keyed (rows ++ call.toList)) :
    Looked st ip ins (errCount e) [] (some []) := by
  obtain ⟨res, g1, _, g3⟩ := C86_lookup h hr hk [] (by simp)
  rwa [(g3 []).2 .nil] at g1

/-- C86 is false of the code in that bytes that are no ASCII characters count for nothing: two names with the same ASCII characters are the same alias. -/
theorem C86_junk_violated (h : AliasLookup st ip ins e rows call) (hr : AsciiRows (rows ++ call.toList)) (hk : Keyed (rows ++ call.toList)) (n n' : List Nat)
    (hb : ∀ b ∈ n, b < 256) (hb' : ∀ b ∈ n', b < 256) (hn : asciiPart n = asciiPart n') (res : Option (List Nat)) :
    Looked st ip ins (errCount e) n res ↔ Looked st ip ins (errCount e) n' res := by
  obtain ⟨r1, a1, a2, a3⟩ := C86_lookup h hr hk n hb
  obtain ⟨r2, b1, b2, b3⟩ := C86_lookup h hr hk n' hb'
  have : r1 = r2 := by
    have key : ∀ t, r1 = some t ↔ r2 = some t := fun t => by rw [a3, b3, upper_ascii, upper_ascii, hn]
    cases r1 with
    | some t => exact ((key t).1 rfl).symm
    | none =>
      cases r2 with
      | none => rfl
      | some t => exact (key t).2 rfl
  subst this
  constructor
  · intro k; rw [a2 _ k]; exact b1
  · intro k; rw [b2 _ k]; exact a1

/-- C86 is false of the code in that names written one after the other, without anything between them, are found too, as the sequence of the definitions,
where no longer name begins with the first. -/
theorem C86_sequence_violated (h : AliasLookup st ip ins e rows call) (hr : AsciiRows (rows ++ call.toList)) (hk : Keyed (rows ++ call.toList))
    {a d b c : List Nat} (ha : (a, d) ∈ rows ++ call.toList) (hb : (b, c) ∈ rows ++ call.toList)
    (hl : ∀ r ∈ rows ++ call.toList, r.1 <+: a ++ b → r.1.length ≤ a.length) (name : List Nat) (hn : upperBytes name = a ++ b) :
    Looked st ip ins (errCount e) name (some (d ++ c)) := by
  obtain ⟨h1, _, h3⟩ := hr _ ha
  obtain ⟨k1, _, k3⟩ := hr _ hb
  have hab : ∀ x ∈ a ++ b, 1 ≤ x ∧ x < 128 := by
    intro x hx
    rcases List.mem_append.1 hx with hx | hx
    · exact h3 x (by simp [hx])
    · exact k3 x (by simp [hx])
  obtain ⟨res, g1, _, g3⟩ := C86_lookup h hr hk name (upper_bytes (by rw [hn]; exact hab))
  have := (g3 (d ++ c)).2 (by
    rw [hn, ascii_self hab]
    have := Resolves.cons (T := rows ++ call.toList) hb k1 (fun r _ hp => by simpa using hp.length_le) Resolves.nil
    simp only [List.append_nil] at this
    exact Resolves.cons ha h1 hl this)
  rwa [this] at g1
end

/-! ### The shipped tables -/

/-- Names given once. -/
theorem keyed_of {rows : Rows} (h : (rows.map (·.1)).Nodup) : Keyed rows := by
  induction rows with
  | nil => intro r hr; simp at hr
  | cons a rows ih =>
    simp only [List.map_cons, List.nodup_cons, List.mem_map, not_exists, not_and] at h
    intro r hr r' hr' he
    rcases List.mem_cons.1 hr with rfl | hr <;> rcases List.mem_cons.1 hr' with rfl | hr'
    · rfl
    · exact absurd he.symm (h.1 r' hr')
    · exact absurd he (h.1 r (by assumption))
    · exact ih h.2 r hr r' hr' he

theorem asciiRows_append {A B : Rows} (ha : AsciiRows A) (hb : AsciiRows B) : AsciiRows (A ++ B) := by
  intro r hr
  rcases List.mem_append.1 hr with hr | hr
  · exact ha r hr
  · exact hb r hr

theorem asciiRows_locale {loc : List Nat} (h : asciiPart loc ≠ []) : AsciiRows [(lit "LOCALE", asciiPart loc)] := by
  intro r hr
  simp only [List.mem_singleton] at hr
  subst hr
  have hL : lit "LOCALE" ≠ [] ∧ ∀ b ∈ lit "LOCALE", 1 ≤ b ∧ b < 128 := by decide +kernel
  refine ⟨hL.1, h, ?_⟩
  intro b hb
  rcases List.mem_append.1 hb with hb | hb
  · exact hL.2 b hb
  · simpa using (List.mem_filter.1 hb).2

theorem fromRows_ok {loc : List Nat} (h : asciiPart loc ≠ []) : AsciiRows (fromRows loc) ∧ Keyed (fromRows loc) := by
  refine ⟨asciiRows_append (by unfold AsciiRows; decide +kernel) (asciiRows_locale h), keyed_of ?_⟩
  rw [fromRows, List.map_append]
  show ((rowsOf Conv.fromAliases).map (·.1) ++ [lit "LOCALE"]).Nodup
  decide +kernel

theorem toRows_ok {loc : List Nat} (h : asciiPart loc ≠ []) : AsciiRows (toRows loc) ∧ Keyed (toRows loc) := by
  refine ⟨asciiRows_append (by unfold AsciiRows; decide +kernel) (asciiRows_locale h), keyed_of ?_⟩
  rw [toRows, List.map_append]
  show ((rowsOf Conv.toAliases).map (·.1) ++ [lit "LOCALE"]).Nodup
  decide +kernel

theorem interRows_ok (cns : Bool) : AsciiRows (interRows cns) ∧ Keyed (interRows cns) := by
  cases cns <;> exact ⟨by unfold AsciiRows; decide +kernel, keyed_of (by decide +kernel)⟩

theorem filterRows_ok : AsciiRows filterRows ∧ Keyed filterRows :=
  ⟨by unfold AsciiRows; decide +kernel, keyed_of (by decide +kernel)⟩

/-- C86.  `bsdconv_solve_alias(FROM, name)`: every line `name definition` of /repo/modules/from/alias, and LOCALE for the character set of the environment
(if that has an ASCII character at all), in any mixture of cases. -/
theorem C86_from {st : Nat → Static π} {ip : Nat → Nat → π → π} {ins : Ins π} {e : Lens π Nat} {lcAll lcCtype lang : Option (List Nat)}
    (h : AliasLookup st ip ins e (rowsOf Conv.fromAliases) (some (lit "LOCALE", asciiPart (localeText lcAll lcCtype lang))))
    (hl : asciiPart (localeText lcAll lcCtype lang) ≠ []) (name : List Nat) :
    (∀ r ∈ Conv.fromAliases, upperBytes name = lit r.1 → Looked st ip ins (errCount e) name (some (lit r.2))) ∧
    (upperBytes name = lit "LOCALE" → Looked st ip ins (errCount e) name (some (asciiPart (localeText lcAll lcCtype lang)))) := by
  obtain ⟨h1, h2⟩ := fromRows_ok hl
  constructor
  · intro r hr hn
    exact C86_alias h h1 h2 (List.mem_append_left _ (List.mem_map.2 ⟨r, hr, rfl⟩)) name hn
  · intro hn
    exact C86_alias h h1 h2 (List.mem_append_right _ (List.mem_singleton.2 rfl)) name hn

/-- C86.  `bsdconv_solve_alias(TO, name)`, the same with /repo/modules/to/alias. -/
theorem C86_to {st : Nat → Static π} {ip : Nat → Nat → π → π} {ins : Ins π} {e : Lens π Nat} {lcAll lcCtype lang : Option (List Nat)}
    (h : AliasLookup st ip ins e (rowsOf Conv.toAliases) (some (lit "LOCALE", asciiPart (localeText lcAll lcCtype lang))))
    (hl : asciiPart (localeText lcAll lcCtype lang) ≠ []) (name : List Nat) :
    (∀ r ∈ Conv.toAliases, upperBytes name = lit r.1 → Looked st ip ins (errCount e) name (some (lit r.2))) ∧
    (upperBytes name = lit "LOCALE" → Looked st ip ins (errCount e) name (some (asciiPart (localeText lcAll lcCtype lang)))) := by
  obtain ⟨h1, h2⟩ := toRows_ok hl
  constructor
  · intro r hr hn
    exact C86_alias h h1 h2 (List.mem_append_left _ (List.mem_map.2 ⟨r, hr, rfl⟩)) name hn
  · intro hn
    exact C86_alias h h1 h2 (List.mem_append_right _ (List.mem_singleton.2 rfl)) name hn

/-- C86.  `bsdconv_solve_alias(INTER, name)`: /repo/modules/inter/alias, and UNICODE for CNS11643-UNICODE where that module exists, for PASS else. -/
theorem C86_inter {st : Nat → Static π} {ip : Nat → Nat → π → π} {ins : Ins π} {e : Lens π Nat} {cns : Bool}
    (h : AliasLookup st ip ins e (rowsOf Conv.interAliases) (some (lit "UNICODE", unicodeText cns))) (name : List Nat) :
    (∀ r ∈ Conv.interAliases, upperBytes name = lit r.1 → Looked st ip ins (errCount e) name (some (lit r.2))) ∧
    (upperBytes name = lit "UNICODE" → Looked st ip ins (errCount e) name (some (if cns then lit "CNS11643-UNICODE" else lit "PASS"))) := by
  obtain ⟨h1, h2⟩ := interRows_ok cns
  constructor
  · intro r hr hn
    exact C86_alias h h1 h2 (List.mem_append_left _ (List.mem_map.2 ⟨r, hr, rfl⟩)) name hn
  · intro hn
    exact C86_alias h h1 h2 (List.mem_append_right _ (List.mem_singleton.2 rfl)) name hn

/-- C86.  `bsdconv_solve_alias(FILTER, name)`: /repo/modules/filter/alias. -/
theorem C86_filter {st : Nat → Static π} {ip : Nat → Nat → π → π} {ins : Ins π} {e : Lens π Nat}
    (h : AliasLookup st ip ins e (rowsOf filterAliases) none) (name : List Nat) :
    ∀ r ∈ filterAliases, upperBytes name = lit r.1 → Looked st ip ins (errCount e) name (some (lit r.2)) := by
  obtain ⟨h1, h2⟩ := filterRows_ok
  intro r hr hn
  exact C86_alias h (by rw [show rowsOf filterAliases ++ (none : Option (List Nat × List Nat)).toList = filterRows from List.append_nil _]; exact h1)
    (by rw [show rowsOf filterAliases ++ (none : Option (List Nat × List Nat)).toList = filterRows from List.append_nil _]; exact h2)
    (List.mem_append_left _ (List.mem_map.2 ⟨r, hr, rfl⟩)) name hn

/-- C86.  What the callback of LOCALE puts out: the inner conversion `ASCII:PASS` run over the text with output held (as the callback runs it) leaves one datum
`01xx` for each ASCII character of the text, for the callback to move into the lookup. -/
theorem C86_inner {st : Nat → Static π} {ip : Nat → Nat → π → π} {ins : Ins π} {e : Lens π Unit} (hn : ins.phasen = 2)
    (h1 : PhaseTables (st 1) (.decode [Ascii.fromRules])) (h2 : Only (st 2) .to_ (Inter.plain e (Inter.toPass none))) (text : List Nat) (hb : IsBytes text) :
    ∃ d ins', Call st (ins.init st ip) ⟨some text, true, .hold⟩ d ins' ∧ nonEmpty ins'.pending = charData (asciiPart text) := by
  have hpl : Placed st ip ins [Phase.proc π (.decode [Ascii.fromRules])] (st 2) [] := by
    refine ⟨?_, rfl, by simp, by simp, by simp, hn⟩
    intro k hk
    obtain rfl : k = 0 := by simpa using hk
    exact table_realises h1 _
  obtain ⟨ds, ins', k1, _, k3, _⟩ := C35_to_pass hpl h2 [] ⟨some text, true, .hold⟩ (by simp) rfl (by simp) (by simpa using hb) [text] rfl
    ⟨.inr (by simp), trivial, rfl, trivial, trivial⟩
  cases k1 with
  | cons hc hnil =>
    cases hnil
    refine ⟨_, _, hc, (k3 (by simp)).trans ?_⟩
    have f1 : (Phase.proc π (.decode [Ascii.fromRules])).out [text] = charData (asciiPart text) := by
      simp only [Phase.proc, Phase.out, List.flatten_cons, List.flatten_nil, List.append_nil, decode_ascii]
    have hne : nonEmpty (charData (asciiPart text)) = charData (asciiPart text) := by
      refine List.filter_eq_self.2 ?_
      intro d hd
      obtain ⟨x, _, rfl⟩ := List.mem_map.1 hd
      rfl
    have hall : (charData (asciiPart text)).filter (fun d => Inter.admits none d) = charData (asciiPart text) := List.filter_eq_self.2 (fun _ _ => rfl)
    simp only [List.cons_append, List.nil_append, runProcs, f1, hne, hall]

/-! ### Such conversions exist -/

/-- `ASCII:ALIAS-x,COUNT#ERR:ASCII` with the codec `c` for ALIAS-x. -/
def aliasSt (c : Codec Nat) (k : Nat) : Static Nat :=
  if k = 1 then ⟨.from_, fun _ => trieCodec Ascii.fromRules, 0⟩
  else if k = 2 then ⟨.inter, fun j => if j = 0 then c else Inter.plain (Lens.self Nat) (Inter.count none), 1⟩
  else ⟨.to_, fun _ => trieCodec (symbolRules Ascii.toRules), 0⟩

/-- A created instance. -/
def aliasIns : Ins Nat := { ph := fun _ => { priv := fun _ => 0 }, phasen := 3 }

theorem aliasSt_lookup {c : Codec Nat} {rows : Rows} {call : Option (List Nat × List Nat)}
    (h : match call with
      | none => Represents c (symbolRules (aliasRules rows))
      | some r => ∃ c' alt, Represents c' (symbolRules (aliasRules (rows ++ [r]))) ∧ CallRow c c' alt (charData r.2)) :
    AliasLookup (aliasSt c) (fun _ _ x => x) aliasIns (Lens.self Nat) rows call := by
  refine ⟨rfl, ?_, ?_, rfl, rfl, ?_, h, rfl⟩
  · have := mkStatic_tables (p := .decode [Ascii.fromRules]) ⟨by simp, by
      intro R hR r hr
      obtain rfl := List.mem_singleton.1 hR
      obtain ⟨c, h1, h2, rfl⟩ := fromAscii_mem hr
      exact ⟨by simp, by simp, fun d hd => by
        obtain rfl := List.mem_singleton.1 hd
        exact ⟨by simp, bytes2 (by omega) (by omega)⟩⟩⟩
    refine ⟨rfl, rfl, fun j hj => ?_, this.2.2.2⟩
    obtain rfl : j = 0 := by simpa using hj
    refine represents_trie _ ?_
    intro r hr
    obtain ⟨c, _, _, rfl⟩ := fromAscii_mem hr
    simp
  · refine ⟨rfl, rfl, fun j hj => ?_, ?_⟩
    · obtain rfl : j = 0 := by simpa using hj
      refine represents_trie _ ?_
      intro r hr
      obtain ⟨r0, h0, rfl⟩ := List.mem_map.1 hr
      obtain ⟨a, b, _⟩ := toAscii_good.1 r0 h0
      exact symbols_ne a (fun d hd => (b d hd).1)
    · intro R hR r hr
      obtain rfl := List.mem_singleton.1 hR
      exact toAscii_good.1 r hr
  · intro i hi
    show (if i = 0 then c else _) = _
    rw [if_neg (by omega)]

theorem aliasTrie_represents {rows : Rows} (h : AsciiRows rows) : Represents (trieCodec (symbolRules (aliasRules rows)) : Codec Nat) (symbolRules (aliasRules rows)) := by
  refine represents_trie _ ?_
  intro r hr
  obtain ⟨r0, h0, rfl⟩ := List.mem_map.1 hr
  obtain ⟨a, b, _⟩ := aliasRules_good h r0 h0
  exact symbols_ne a (fun d hd => (b d hd).1)

/-- The filter lookup. -/
theorem filterLookup_exists : AliasLookup (aliasSt (trieCodec (symbolRules (aliasRules filterRows)))) (fun _ _ x => x) aliasIns (Lens.self Nat) (rowsOf filterAliases) none :=
  aliasSt_lookup (aliasTrie_represents filterRows_ok.1)

/-- The lookup of FROM, for any environment. -/
theorem fromLookup_exists {loc : List Nat} (hl : asciiPart loc ≠ []) :
    ∃ c, AliasLookup (aliasSt c) (fun _ _ x => x) aliasIns (Lens.self Nat) (rowsOf Conv.fromAliases) (some (lit "LOCALE", asciiPart loc)) := by
  obtain ⟨h1, h2⟩ := fromRows_ok hl
  have hsym : symbols (charData (lit "LOCALE")) = (symbols (charData (lit "LOCAL")) ++ [256, 1]) ++ [69] := by decide +kernel
  have hlook : lookup (symbolRules (aliasRules (fromRows loc))) ((symbols (charData (lit "LOCAL")) ++ [256, 1]) ++ [69]) = some (charData (asciiPart loc)) := by
    rw [← hsym, lookup_symbolRules (aliasRules_good h1), lookup_alias]
    · cases hc : lookup (fromRows loc) (lit "LOCALE") with
      | none => exact absurd rfl (Verif.Spec.lookup_none.1 hc (lit "LOCALE", asciiPart loc) (List.mem_append_right _ (List.mem_singleton.2 rfl)))
      | some b =>
        have := h2 _ (Verif.Spec.lookup_mem hc) (lit "LOCALE", asciiPart loc) (List.mem_append_right _ (List.mem_singleton.2 rfl)) rfl
        simp only [Prod.mk.injEq, true_and] at this
        rw [this]; rfl
    · have : ∀ d ∈ charData (lit "LOCALE"), d ≠ [] ∧ ∀ b ∈ d, b < 256 := by decide +kernel
      exact this
  have hext : extendable (symbolRules (aliasRules (fromRows loc))) ((symbols (charData (lit "LOCAL")) ++ [256, 1]) ++ [69]) = false := by
    rw [extendable, List.any_eq_false]
    intro r hr
    simp only [symbolRules, aliasRules, fromRows, List.map_append, List.map_map, List.mem_append, List.mem_map, Function.comp] at hr
    rcases hr with ⟨r0, h0, rfl⟩ | ⟨r0, h0, rfl⟩
    · have : ∀ r ∈ rowsOf Conv.fromAliases, ((symbols (charData (lit "LOCAL")) ++ [256, 1]) ++ [69]).isPrefixOf (symbols (charData r.1)) = false := by decide +kernel
      simp only [this r0 h0, Bool.false_and, Bool.false_eq_true, not_false_eq_true]
    · obtain rfl := List.mem_singleton.1 h0
      simp only [hsym]
      simp
  exact ⟨_, aliasSt_lookup (call := some _) ⟨_, _, aliasTrie_represents h1, callTrie_row hlook hext (by decide) (by decide)⟩⟩

theorem behindDot_none : ∀ {v : List Nat}, 46 ∉ v → behindDot v = none
  | [], _ => rfl
  | b :: v, h => by
    rw [behindDot, if_neg (fun e => h (by simp [e]))]
    exact behindDot_none fun k => h (by simp [k])

theorem behindDot_some : ∀ {a : List Nat} (t : List Nat), 46 ∉ a → behindDot (a ++ 46 :: t) = some t
  | [], t, _ => by simp [behindDot]
  | b :: a, t, h => by
    rw [List.cons_append, behindDot, if_neg (fun e => h (by simp [e]))]
    exact behindDot_some t fun k => h (by simp [k])

/-- C86.  What stands for LOCALE: LC_ALL decides if it is set, else LC_CTYPE, else LANG; the name of the character set is what is behind the first `.` of the value, or
the whole value; nothing, C and POSIX mean ASCII, and so does an environment with none of them. -/
theorem C86_locale (lcAll lcCtype lang : Option (List Nat)) :
    (∀ v t : List Nat, (lcAll = some v ∨ lcAll = none ∧ lcCtype = some v ∨ lcAll = none ∧ lcCtype = none ∧ lang = some v) →
      ((46 ∉ v ∧ t = v) ∨ ∃ a, 46 ∉ a ∧ v = a ++ 46 :: t) →
      localeText lcAll lcCtype lang = if t = [] ∨ t = lit "C" ∨ t = lit "POSIX" then lit "ASCII" else t) ∧
    (lcAll = none → lcCtype = none → lang = none → localeText lcAll lcCtype lang = lit "ASCII") := by
  constructor
  · intro v t hv ht
    have h1 : (lcAll.or lcCtype).or lang = some v := by
      rcases hv with rfl | ⟨rfl, rfl⟩ | ⟨rfl, rfl, rfl⟩ <;> rfl
    have h2 : (behindDot v).getD v = t := by
      rcases ht with ⟨h, rfl⟩ | ⟨a, h, rfl⟩
      · rw [behindDot_none h]; rfl
      · rw [behindDot_some t h]; rfl
    simp only [localeText, h1, h2]
  · rintro rfl rfl rfl
    rfl

/-- C86 is false of the code for a variable that is set and empty, which POSIX wants to be as good as unset: LANG is not looked at. -/
theorem C86_locale_violated (lcCtype lang : Option (List Nat)) : localeText (some []) lcCtype lang = lit "ASCII" := rfl

/-- `LC_ALL=ja_JP.EUC-JP` beside `LANG=zh_TW.UTF-8`. -/
example : localeText (some (lit "ja_JP.EUC-JP")) none (some (lit "zh_TW.UTF-8")) = lit "EUC-JP" :=
  (C86_locale _ _ _).1 _ (lit "EUC-JP") (Or.inl rfl) (Or.inr ⟨lit "ja_JP", by decide +kernel, by decide +kernel⟩)

/-- With LANG=zh_TW.UTF-8, `locale` is UTF-8 and `utf-8` is `ASCII,_UTF-8`. -/
example : ∃ c, Looked (aliasSt c) (fun _ _ x => x) aliasIns (errCount (Lens.self Nat)) (lit "locale") (some (lit "UTF-8")) ∧
    Looked (aliasSt c) (fun _ _ x => x) aliasIns (errCount (Lens.self Nat)) (lit "utf-8") (some (lit "ASCII,_UTF-8")) := by
  have hloc : asciiPart (localeText none none (some (lit "zh_TW.UTF-8"))) = lit "UTF-8" := by decide +kernel
  obtain ⟨c, h⟩ := fromLookup_exists (loc := localeText none none (some (lit "zh_TW.UTF-8"))) (by rw [hloc]; decide +kernel)
  have h1 := (C86_from h (by rw [hloc]; decide +kernel) (lit "locale")).2 (by decide +kernel)
  have h2 := (C86_from h (by rw [hloc]; decide +kernel) (lit "utf-8")).1 ("UTF-8", "ASCII,_UTF-8") (by decide +kernel) (by decide +kernel)
  rw [hloc] at h1
  exact ⟨c, h1, h2⟩

/-- `FOR=11`, `FOR=` and `FOR=1` with a stray byte are names of filters. -/
example : Looked (aliasSt (trieCodec (symbolRules (aliasRules filterRows)))) (fun _ _ x => x) aliasIns (errCount (Lens.self Nat)) (lit "11")
    (some (lit "UNICODEUNICODE")) ∧
    Looked (aliasSt (trieCodec (symbolRules (aliasRules filterRows)))) (fun _ _ x => x) aliasIns (errCount (Lens.self Nat)) [0xC3, 0x31, 0xA9]
    (some (lit "UNICODE")) ∧
    Looked (aliasSt (trieCodec (symbolRules (aliasRules filterRows)))) (fun _ _ x => x) aliasIns (errCount (Lens.self Nat)) (lit "X1") none := by
  have ha : rowsOf filterAliases ++ (none : Option (List Nat × List Nat)).toList = filterRows := List.append_nil _
  obtain ⟨h1, h2⟩ := filterRows_ok
  rw [← ha] at h1 h2
  refine ⟨?_, ?_, ?_⟩
  · exact C86_sequence_violated filterLookup_exists h1 h2 (a := lit "1") (d := lit "UNICODE") (b := lit "1") (c := lit "UNICODE") (by decide +kernel)
      (by decide +kernel) (by decide +kernel) _ (by decide +kernel)
  · exact (C86_junk_violated filterLookup_exists h1 h2 [0xC3, 0x31, 0xA9] (lit "1") (by decide) (by decide +kernel) (by decide +kernel) _).2
      (C86_filter filterLookup_exists (lit "1") ("1", "UNICODE") (by decide +kernel) (by decide +kernel))
  · exact C86_unknown filterLookup_exists h1 h2 (lit "X1") (by decide +kernel) (by decide +kernel) (by decide +kernel)

end Verif.Props
