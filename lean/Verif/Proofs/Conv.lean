import Verif.Proofs.Str
/-
Facts about `unpack` and `pack`.
-/
namespace Verif.Conv
open Verif.Util

theorem flatMap_congr' {α β : Type} {l : List α} {f g : α → List β} (h : ∀ a ∈ l, f a = g a) :
    l.flatMap f = l.flatMap g := by
  induction l with
  | nil => rfl
  | cons a l ih => rw [List.flatMap_cons, List.flatMap_cons, h a (by simp), ih fun x hx => h x (by simp [hx])]

/-- Splitting at every character satisfying `p`. -/
def splitP (p : Char → Bool) : Str → List Str
  | [] => [[]]
  | c :: cs =>
    if p c then [] :: splitP p cs
    else match splitP p cs with
      | t :: ts => (c :: t) :: ts
      | [] => [[c]]

theorem splitP_cons (p : Char → Bool) (c : Char) (cs : Str) : splitP p (c :: cs) =
    if p c then [] :: splitP p cs
    else match splitP p cs with
      | t :: ts => (c :: t) :: ts
      | [] => [[c]] := rfl

/-- Phase separators. -/
def isSep (c : Char) : Bool := c = ':' ∨ c = '|'

theorem splitP_ne (p : Char → Bool) : ∀ s, splitP p s ≠ []
  | [] => by simp [splitP]
  | c :: cs => by
    rw [splitP_cons]
    split
    · simp
    · split <;> simp

/-- Splitting into segments and then into phases is splitting at both separators. -/
theorem split_two : ∀ s : Str, (splitC '|' s).flatMap (splitC ':') = splitP isSep s
  | [] => rfl
  | c :: cs => by
    have ih := split_two cs
    rw [splitC_cons, splitP_cons]
    by_cases h1 : c = '|'
    · rw [if_pos h1, if_pos (by simp [isSep, h1])]
      rw [List.flatMap_cons, ih]
      rfl
    · rw [if_neg h1]
      cases hs : splitC '|' cs with
      | nil => exact absurd hs (splitC_ne _ _)
      | cons t ts =>
        rw [hs] at ih
        simp only [List.flatMap_cons] at ih ⊢
        rw [splitC_cons]
        by_cases h2 : c = ':'
        · rw [if_pos h2, if_pos (by simp [isSep, h2]), ← ih]
          rfl
        · rw [if_neg h2, if_neg (by simp [isSep, h1, h2])]
          cases ht : splitC ':' t with
          | nil => exact absurd ht (splitC_ne _ _)
          | cons a as =>
            rw [ht] at ih
            rw [← ih]
            rfl

theorem segTypes_length (f : Nat) : (segTypes f).length = f := by
  unfold segTypes
  split
  · simp
  · simp; omega

theorem segTypes_not_other (f : Nat) : PT.other ∉ segTypes f := by
  unfold segTypes
  split
  · simp
  · simp

theorem phaseTexts_snd (s : Str) : (phaseTexts s).map (·.2) = splitP isSep s := by
  unfold phaseTexts
  rw [← split_two, List.map_flatMap]
  simp only [tokens_eq]
  congr 1
  funext seg
  exact List.map_snd_zip (by rw [segTypes_length]; exact Nat.le_refl _)

theorem phaseTexts_type {s : Str} {p : PT × Str} (h : p ∈ phaseTexts s) : p.1 ≠ .other := by
  unfold phaseTexts at h
  obtain ⟨seg, _, hp⟩ := List.mem_flatMap.1 h
  have := (List.of_mem_zip (a := p.1) (b := p.2) hp).1
  intro he
  rw [he] at this
  exact segTypes_not_other _ this

/-- The codecs a phase text denotes. -/
def codecsOf (t : Str) : List CodecD := (splitC ',' t).map parseCodec

/-- A phase text is acceptable: all codec names are non-empty. -/
def TextOk (t : Str) : Prop := ∀ c ∈ codecsOf t, c.desc ≠ []

theorem parsePhase_eq (p : PT × Str) :
    parsePhase p = if p.2 = [] ∨ (codecsOf p.2).any (fun c => c.desc = []) then none
      else some ⟨p.1, codecsOf p.2⟩ := by
  unfold parsePhase codecsOf
  rw [tokens_eq]

theorem textOk_ne {t : Str} (h : TextOk t) : t ≠ [] := by
  rintro rfl
  exact h ⟨[], none⟩ (by simp [codecsOf, splitC, parseCodec, strchr]) rfl

theorem parsePhase_some {p : PT × Str} {q : PhaseD} :
    parsePhase p = some q ↔ TextOk p.2 ∧ q = ⟨p.1, codecsOf p.2⟩ := by
  rw [parsePhase_eq]
  by_cases h : TextOk p.2
  · rw [if_neg]
    · simp [h, eq_comm]
    · rintro (h2 | h2)
      · exact textOk_ne h h2
      · obtain ⟨c, hc, hd⟩ := List.any_eq_true.1 h2
        exact h c hc (by simpa using hd)
  · constructor
    · intro hq
      rw [if_pos] at hq
      · cases hq
      · right
        unfold TextOk at h
        simp only [Classical.not_forall] at h
        obtain ⟨c, hc, hd⟩ := h
        exact List.any_eq_true.2 ⟨c, hc, by simpa using hd⟩
    · intro hq; exact absurd hq.1 h

theorem mapM_some_iff {α β : Type} (f : α → Option β) : ∀ (l : List α) (r : List β),
    l.mapM f = some r ↔ l.map f = r.map some
  | [], r => by
    cases r with
    | nil => simp
    | cons _ _ => simp
  | a :: l, r => by
    have ih := mapM_some_iff f l
    rw [List.mapM_cons]
    cases hf : f a with
    | none => cases r <;> simp [hf]
    | some b =>
      simp only [Option.bind_eq_bind, Option.bind_some]
      cases hl : l.mapM f with
      | none =>
        cases r with
        | nil => simp
        | cons c cs =>
          constructor
          · intro h; cases h
          · intro h
            simp only [List.map_cons, List.cons.injEq] at h
            have := (ih cs).2 h.2
            rw [hl] at this; cases this
      | some bs =>
        have hb := (ih bs).1 hl
        simp only [Option.bind_some, Option.pure_def, Option.some.injEq, List.map_cons, hf, hb]
        constructor
        · intro h; subst h; simp
        · intro h
          cases r with
          | nil => simp at h
          | cons c cs =>
            simp only [List.map_cons, List.cons.injEq, Option.some.injEq] at h
            rw [h.1]
            congr 1
            exact List.map_inj_right (fun _ _ h => Option.some.inj h) |>.1 h.2

theorem map_some_inv {α β : Type} {f : α → Option β} {g : α → β} : ∀ {l : List α} {r : List β},
    l.map f = r.map some → (∀ a b, f a = some b → b = g a) → r = l.map g
  | [], [], _, _ => rfl
  | [], _ :: _, h, _ => by simp at h
  | _ :: _, [], h, _ => by simp at h
  | a :: l, b :: r, h, hg => by
    simp only [List.map_cons, List.cons.injEq] at h
    rw [List.map_cons, ← hg a b h.1, ← map_some_inv h.2 hg]

/-- `unpack` succeeds exactly on strings all of whose phase texts are acceptable. -/
theorem unpack_some {s : Str} {ps : List PhaseD} :
    unpack s = some ps ↔
      (∀ t ∈ splitP isSep s, TextOk t) ∧ ps = (phaseTexts s).map fun p => ⟨p.1, codecsOf p.2⟩ := by
  unfold unpack
  rw [mapM_some_iff]
  constructor
  · intro h
    refine ⟨?_, map_some_inv h fun a b hab => (parsePhase_some.1 hab).2⟩
    intro t ht
    rw [← phaseTexts_snd] at ht
    obtain ⟨p, hp, rfl⟩ := List.mem_map.1 ht
    have : parsePhase p ∈ ps.map some := by rw [← h]; exact List.mem_map_of_mem hp
    obtain ⟨q, _, hq⟩ := List.mem_map.1 this
    exact (parsePhase_some.1 hq.symm).1
  · rintro ⟨h, rfl⟩
    rw [List.map_map]
    apply List.map_congr_left
    intro p hp
    apply parsePhase_some.2 ⟨h p.2 _, rfl⟩
    rw [← phaseTexts_snd]
    exact List.mem_map_of_mem hp

theorem unpack_codecs {s : Str} {ps : List PhaseD} (h : unpack s = some ps) :
    ps.map (·.codecs) = (splitP isSep s).map codecsOf := by
  rw [(unpack_some.1 h).2, List.map_map, ← phaseTexts_snd, List.map_map]
  rfl

theorem unpack_exists {s : Str} (h : ∀ t ∈ splitP isSep s, TextOk t) : ∃ ps, unpack s = some ps :=
  ⟨_, unpack_some.2 ⟨h, rfl⟩⟩

/-! Properties of parsed pieces. -/

theorem splitP_mem_free (p : Char → Bool) : ∀ (s : Str), ∀ t ∈ splitP p s, ∀ c ∈ t, p c = false
  | [], t, h => by simp [splitP] at h; simp [h]
  | x :: xs, t, h => by
    have ih := splitP_mem_free p xs
    rw [splitP_cons] at h
    split at h
    · rcases List.mem_cons.1 h with rfl | h
      · simp
      · exact ih t h
    · rename_i hc
      cases hs : splitP p xs with
      | nil => exact absurd hs (splitP_ne p xs)
      | cons a as =>
        rw [hs] at h ih
        rcases List.mem_cons.1 h with rfl | h
        · intro c hcm
          rcases List.mem_cons.1 hcm with rfl | hcm
          · simpa using hc
          · exact ih a (by simp) c hcm
        · exact ih t (by simp [h])

theorem splitP_free (p : Char → Bool) : ∀ (t : Str), (∀ c ∈ t, p c = false) → splitP p t = [t]
  | [], _ => rfl
  | c :: cs, h => by
    rw [splitP_cons, if_neg (by simp [h c (by simp)]), splitP_free p cs (fun x hx => h x (by simp [hx]))]

theorem splitP_append (p : Char → Bool) (d : Char) (hd : p d = true) : ∀ (t s : Str),
    (∀ c ∈ t, p c = false) → splitP p (t ++ d :: s) = t :: splitP p s
  | [], s, _ => by rw [List.nil_append, splitP_cons, if_pos hd]
  | c :: cs, s, h => by
    rw [List.cons_append, splitP_cons, if_neg (by simp [h c (by simp)]),
      splitP_append p d hd cs s (fun x hx => h x (by simp [hx]))]

/-- A text without phase separators. -/
def SepFree (t : Str) : Prop := ∀ c ∈ t, isSep c = false

/-- What `parseCodec` gives on a comma-free text. -/
theorem parseCodec_cases (t : Str) :
    ('#' ∉ t ∧ parseCodec t = ⟨t, none⟩) ∨
    ∃ a b, t = a ++ '#' :: b ∧ '#' ∉ a ∧ parseCodec t = ⟨a, some b⟩ := by
  unfold parseCodec
  cases h : strchr '#' t with
  | none => left; exact ⟨strchr_none.1 h, rfl⟩
  | some p =>
    right
    obtain ⟨a, b⟩ := p
    have := strchr_some h
    exact ⟨a, b, this.1, this.2, rfl⟩

/-- A codec as `unpack` produces it. -/
structure WfC (c : CodecD) : Prop where
  ne : c.desc ≠ []
  noHash : '#' ∉ c.desc
  noComma : ',' ∉ c.desc
  sep : SepFree c.desc
  argComma : ∀ a, c.argv = some a → ',' ∉ a
  argSep : ∀ a, c.argv = some a → SepFree a

theorem wf_codecsOf {t : Str} (hs : SepFree t) (ho : TextOk t) : ∀ c ∈ codecsOf t, WfC c := by
  intro c hc
  have hne := ho c hc
  obtain ⟨u, hu, rfl⟩ := List.mem_map.1 hc
  have hfree := split_mem_free ',' t u hu
  have hsub := split_mem_sub ',' t u hu
  rcases parseCodec_cases u with ⟨h1, h2⟩ | ⟨a, b, h1, h2, h3⟩
  · rw [h2] at hne ⊢
    exact ⟨hne, h1, hfree, fun x hx => hs x (hsub x hx), by simp, by simp⟩
  · rw [h3] at hne ⊢
    subst h1
    simp only [List.mem_append, List.mem_cons, not_or] at hfree
    refine ⟨hne, h2, hfree.1, fun x hx => hs x (hsub x (by simp [show x ∈ a from hx])), ?_, ?_⟩
    · intro v hv; cases hv; exact hfree.2.2
    · intro v hv; cases hv
      exact fun x hx => hs x (hsub x (by simp [hx]))

theorem codecsOf_ne (t : Str) : codecsOf t ≠ [] := by
  unfold codecsOf; simp [splitC_ne]

/-- Everything `unpack` guarantees about its result. -/
theorem unpack_wf {s : Str} {ps : List PhaseD} (h : unpack s = some ps) :
    ps ≠ [] ∧ ∀ p ∈ ps, p.type ≠ .other ∧ p.codecs ≠ [] ∧ ∀ c ∈ p.codecs, WfC c := by
  obtain ⟨h1, h2⟩ := unpack_some.1 h
  constructor
  · intro he
    have := unpack_codecs h
    rw [he] at this
    simp at this
    exact splitP_ne _ _ this
  · intro p hp
    rw [h2] at hp
    obtain ⟨q, hq, rfl⟩ := List.mem_map.1 hp
    refine ⟨phaseTexts_type hq, codecsOf_ne _, ?_⟩
    have hq2 : q.2 ∈ splitP isSep s := by rw [← phaseTexts_snd]; exact List.mem_map_of_mem hq
    exact wf_codecsOf (splitP_mem_free _ _ _ hq2) (h1 _ hq2)

/-! Printing. -/

/-- A codec that can be printed: no phase separator anywhere, no comma in the arguments. -/
structure Pr (c : CodecD) : Prop where
  sep : SepFree c.desc
  argComma : ∀ a, c.argv = some a → ',' ∉ a
  argSep : ∀ a, c.argv = some a → SepFree a

theorem WfC.pr {c : CodecD} (h : WfC c) : Pr c := ⟨h.sep, h.argComma, h.argSep⟩

theorem sepFree_append {a b : Str} : SepFree (a ++ b) ↔ SepFree a ∧ SepFree b := by
  unfold SepFree; simp only [List.mem_append]
  constructor
  · intro h; exact ⟨fun c hc => h c (Or.inl hc), fun c hc => h c (Or.inr hc)⟩
  · rintro ⟨h1, h2⟩ c (hc | hc)
    · exact h1 c hc
    · exact h2 c hc

theorem sepFree_cons {x : Char} {b : Str} : SepFree (x :: b) ↔ isSep x = false ∧ SepFree b := by
  unfold SepFree; simp

theorem packPiece_comma {c : CodecD} (h : Pr c) {t : Str} (ht : ',' ∉ t) : ',' ∉ packPiece c.argv t := by
  unfold packPiece
  split
  · rename_i a as hv
    have hh := h.argComma _ hv
    simp only [List.mem_append, not_or]
    refine ⟨ht, ?_⟩
    simp only [List.mem_cons, not_or] at hh ⊢
    refine ⟨?_, hh⟩
    split <;> decide
  · exact ht

theorem packPiece_sep {c : CodecD} (h : Pr c) {t : Str} (ht : SepFree t) : SepFree (packPiece c.argv t) := by
  unfold packPiece
  split
  · rename_i a as hv
    have := h.argSep _ hv
    rw [sepFree_append, sepFree_cons]
    refine ⟨ht, ?_, this⟩
    split <;> decide
  · exact ht

/-- The comma-separated pieces of a printed codec. -/
def pieces (c : CodecD) : List Str := (splitC ',' c.desc).map (packPiece c.argv)

theorem pieces_ne (c : CodecD) : pieces c ≠ [] := by simp [pieces, splitC_ne]

theorem packCodec_eq (c : CodecD) : packCodec c = joinWith ',' (pieces c) := by
  unfold packCodec pieces; rw [tokens_eq]

theorem pieces_comma {c : CodecD} (h : Pr c) : ∀ t ∈ pieces c, ',' ∉ t := by
  intro t ht
  obtain ⟨u, hu, rfl⟩ := List.mem_map.1 ht
  exact packPiece_comma h (split_mem_free _ _ u hu)

theorem sepFree_join {ts : List Str} (h : ∀ t ∈ ts, SepFree t) : SepFree (joinWith ',' ts) := by
  induction ts with
  | nil => intro c hc; simp [joinWith] at hc
  | cons t ts ih =>
    cases ts with
    | nil => exact h t (by simp)
    | cons a as =>
      rw [joinWith_cons _ _ _ (by simp), sepFree_append, sepFree_cons]
      exact ⟨h t (by simp), by decide, ih fun x hx => h x (by simp only [List.mem_cons] at hx ⊢; exact Or.inr hx)⟩

theorem packCodec_sep {c : CodecD} (h : Pr c) : SepFree (packCodec c) := by
  rw [packCodec_eq]
  apply sepFree_join
  intro t ht
  obtain ⟨u, hu, rfl⟩ := List.mem_map.1 ht
  exact packPiece_sep h (fun c hc => h.sep c (split_mem_sub _ _ u hu c hc))

theorem packPhase_sep {p : PhaseD} (h : ∀ c ∈ p.codecs, Pr c) : SepFree (packPhase p) := by
  unfold packPhase
  apply sepFree_join
  intro t ht
  obtain ⟨c, hc, rfl⟩ := List.mem_map.1 ht
  exact packCodec_sep (h c hc)

theorem joinWith_append (d : Char) : ∀ (a b : List Str), a ≠ [] → b ≠ [] →
    joinWith d (a ++ b) = joinWith d a ++ d :: joinWith d b
  | [], b, h, _ => absurd rfl h
  | [t], b, _, hb => by rw [List.singleton_append, joinWith_cons _ _ _ hb]; rfl
  | t :: a :: as, b, _, hb => by
    rw [List.cons_append, joinWith_cons _ _ _ (by simp), joinWith_append d (a :: as) b (by simp) hb,
      joinWith_cons d t (a :: as) (by simp)]
    simp

/-- Joining joins is joining. -/
theorem join_flatMap (d : Char) {α : Type} (f : α → List Str) (hf : ∀ a, f a ≠ []) : ∀ (l : List α), l ≠ [] →
    joinWith d (l.map fun a => joinWith d (f a)) = joinWith d (l.flatMap f)
  | [], h => absurd rfl h
  | [a], _ => by simp [joinWith]
  | a :: b :: l, _ => by
    have ih := join_flatMap d f hf (b :: l) (by simp)
    have hne : (b :: l).flatMap f ≠ [] := by
      rw [List.flatMap_cons]; simp [hf b]
    rw [List.map_cons, joinWith_cons _ _ _ (by simp), ih, List.flatMap_cons (x := a),
      joinWith_append d _ _ (hf a) hne]

theorem packPhase_eq (p : PhaseD) (h : p.codecs ≠ []) :
    packPhase p = joinWith ',' (p.codecs.flatMap pieces) := by
  unfold packPhase
  rw [← join_flatMap ',' pieces pieces_ne p.codecs h]
  congr 1
  apply List.map_congr_left
  intro c _
  exact packCodec_eq c

theorem split_packPhase {p : PhaseD} (h : p.codecs ≠ []) (hp : ∀ c ∈ p.codecs, Pr c) :
    splitC ',' (packPhase p) = p.codecs.flatMap pieces := by
  rw [packPhase_eq p h]
  apply split_join
  · cases hc : p.codecs with
    | nil => exact absurd hc h
    | cons c cs => rw [List.flatMap_cons]; simp [pieces_ne c]
  · intro t ht
    obtain ⟨c, hc, ht⟩ := List.mem_flatMap.1 ht
    exact pieces_comma (hp c hc) t ht

theorem codecsOf_packPhase {p : PhaseD} (h : p.codecs ≠ []) (hp : ∀ c ∈ p.codecs, Pr c) :
    codecsOf (packPhase p) = p.codecs.flatMap fun c => (pieces c).map parseCodec := by
  unfold codecsOf
  rw [split_packPhase h hp, List.map_flatMap]

/-- Splitting a printed conversion gives the printed phases back, whatever their types. -/
theorem splitP_pack : ∀ (ps : List PhaseD), ps ≠ [] → (∀ p ∈ ps, p.type ≠ .other ∧ ∀ c ∈ p.codecs, Pr c) →
    splitP isSep (pack ps) = ps.map packPhase
  | [], h, _ => absurd rfl h
  | p :: ps, _, h => by
    have hsep : ∀ (ps : List PhaseD) (t : Str), SepFree t → (∀ p ∈ ps, p.type ≠ .other ∧ ∀ c ∈ p.codecs, Pr c) →
        splitP isSep (t ++ ps.flatMap fun q => packSep q.type ++ packPhase q) = t :: ps.map packPhase := by
      intro ps
      induction ps with
      | nil => intro t ht _; simp only [List.flatMap_nil, List.append_nil, List.map_nil]; exact splitP_free _ t ht
      | cons q qs ih =>
        intro t ht hq
        obtain ⟨d, hd, hd2⟩ : ∃ d, packSep q.type = [d] ∧ isSep d = true := by
          have := (hq q (by simp)).1
          cases hty : q.type with
          | from_ => exact ⟨'|', rfl, by decide⟩
          | inter => exact ⟨':', rfl, by decide⟩
          | to_ => exact ⟨':', rfl, by decide⟩
          | other => exact absurd hty this
        rw [List.flatMap_cons, hd, List.append_assoc, List.singleton_append, splitP_append _ d hd2 _ _ ht,
          ih _ (packPhase_sep (hq q (by simp)).2) (fun x hx => hq x (by simp [hx]))]
        rfl
    exact hsep ps (packPhase p) (packPhase_sep (h p (by simp)).2) (fun x hx => h x (by simp [hx]))

/-- The codecs read back from a printed conversion. -/
theorem shape_pack {ps : List PhaseD} (hne : ps ≠ [])
    (h : ∀ p ∈ ps, p.type ≠ .other ∧ p.codecs ≠ [] ∧ ∀ c ∈ p.codecs, Pr c) :
    (splitP isSep (pack ps)).map codecsOf =
      ps.map fun p => p.codecs.flatMap fun c => (pieces c).map parseCodec := by
  rw [splitP_pack ps hne (fun p hp => ⟨(h p hp).1, (h p hp).2.2⟩), List.map_map]
  apply List.map_congr_left
  intro p hp
  exact codecsOf_packPhase (h p hp).2.1 (h p hp).2.2

/-- A parsed codec reads back as itself, an empty argument as none. -/
theorem pieces_wf {c : CodecD} (h : WfC c) :
    (pieces c).map parseCodec = [⟨c.desc, if c.argv = some [] then none else c.argv⟩] := by
  unfold pieces
  rw [split_free ',' _ h.noComma]
  simp only [List.map_cons, List.map_nil, List.cons.injEq, and_true]
  obtain ⟨desc, argv⟩ := c
  have hh : strchr '#' desc = none := strchr_none.2 h.noHash
  match argv with
  | none => simp [packPiece, parseCodec, hh]
  | some [] => simp [packPiece, parseCodec, hh]
  | some (a :: as) => simp [packPiece, hh, parseCodec, strchr_append (a :: as) h.noHash]

theorem pieces_new (t : Str) : (pieces (newCodec t)).map parseCodec = codecsOf t := by
  unfold pieces newCodec codecsOf
  rw [List.map_map]
  apply List.map_congr_left
  intro u _
  simp [packPiece]

/-- Name and arguments of the codecs, as the codecs see them (no arguments = empty arguments). -/
def view (ps : List PhaseD) : List (List (Str × Str)) :=
  ps.map fun p => p.codecs.map fun c => (c.desc, c.argv.getD [])

theorem view_wf {p : PhaseD} (h : ∀ c ∈ p.codecs, WfC c) :
    (p.codecs.flatMap fun c => (pieces c).map parseCodec).map (fun c => (c.desc, c.argv.getD [])) =
      p.codecs.map fun c => (c.desc, c.argv.getD []) := by
  obtain ⟨ty, cs⟩ := p
  simp only at h ⊢
  induction cs with
  | nil => rfl
  | cons c cs ih =>
    rw [List.flatMap_cons, List.map_append, ih (fun x hx => h x (by simp [hx])), pieces_wf (h c (by simp))]
    simp only [List.map_cons, List.map_nil, List.singleton_append, List.cons.injEq, Prod.mk.injEq, true_and,
      and_true]
    split
    · rename_i he; rw [he]; rfl
    · rfl
end Verif.Conv
