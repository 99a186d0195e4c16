import Verif.Proofs.Conv
import Verif.Model.Aliases
import Verif.Spec.Conv
import Verif.Props.Util
/-
C44, C45, C46, C48, C49, C58, C59: conversion strings.
-/
namespace Verif.Props
open Verif Verif.Spec Verif.Util Verif.Conv

/-! ### C44 -/

theorem packCodec_parse {u : Str} (hc : ',' ∉ u) (he : (parseCodec u).argv ≠ some []) :
    packCodec (parseCodec u) = u := by
  rw [packCodec_eq]
  unfold pieces
  rcases parseCodec_cases u with ⟨h1, h2⟩ | ⟨a, b, h1, h2, h3⟩
  · rw [h2]; simp only
    rw [split_free ',' _ hc]
    simp [packPiece, joinWith]
  · rw [h3] at he ⊢
    simp only at he ⊢
    have ha : ',' ∉ a := by rw [h1] at hc; simp at hc; exact hc.1
    rw [split_free ',' _ ha]
    cases b with
    | nil => exact absurd rfl he
    | cons x xs => simp [packPiece, joinWith, strchr_none.2 h2, h1]

theorem packPhase_parse {ty : PT} {t : Str} (he : ∀ c ∈ codecsOf t, c.argv ≠ some []) :
    packPhase ⟨ty, codecsOf t⟩ = t := by
  unfold packPhase codecsOf
  simp only
  rw [List.map_map]
  have : (splitC ',' t).map (packCodec ∘ parseCodec) = splitC ',' t := by
    conv => rhs; rw [← List.map_id (splitC ',' t)]
    apply List.map_congr_left
    intro u hu
    exact packCodec_parse (split_mem_free _ _ u hu) (he _ (List.mem_map_of_mem hu))
  rw [this, join_split]

/-- Printing the phases of one segment of at least two phases, each preceded by its separator. -/
theorem seg_print (ts : List Str) (h : 2 ≤ ts.length) :
    ((segTypes ts.length).zip ts).flatMap (fun q => packSep q.1 ++ q.2) = '|' :: joinWith ':' ts := by
  match ts, h with
  | a :: b :: ts, _ =>
    have gen : ∀ (ts : List Str) (b : Str),
        ((List.replicate ts.length PT.inter ++ [PT.to_]).zip (b :: ts)).flatMap (fun q => packSep q.1 ++ q.2)
          = ':' :: joinWith ':' (b :: ts) := by
      intro ts
      induction ts with
      | nil => intro b; simp [packSep, joinWith]
      | cons c cs ih =>
        intro b
        rw [List.length_cons, List.replicate_succ, List.cons_append, List.zip_cons_cons, List.flatMap_cons, ih c,
          joinWith_cons _ b (c :: cs) (by simp)]
        simp [packSep]
    have hs : segTypes (a :: b :: ts).length = .from_ :: (List.replicate ts.length .inter ++ [.to_]) := by
      unfold segTypes; simp
    rw [hs, List.zip_cons_cons, List.flatMap_cons, gen ts b, joinWith_cons _ a (b :: ts) (by simp)]
    simp [packSep]

theorem segs_print (segs : List (List Str)) (h : ∀ ts ∈ segs, 2 ≤ ts.length) :
    (segs.flatMap fun ts => (segTypes ts.length).zip ts).flatMap (fun q => packSep q.1 ++ q.2) =
      segs.flatMap fun ts => '|' :: joinWith ':' ts := by
  induction segs with
  | nil => rfl
  | cons ts segs ih =>
    rw [List.flatMap_cons, List.flatMap_append, seg_print ts (h ts (by simp)),
      ih fun x hx => h x (by simp [hx]), List.flatMap_cons]

theorem bar_join : ∀ (l : List Str), l ≠ [] → (l.flatMap fun t => '|' :: t) = '|' :: joinWith '|' l
  | [], h => absurd rfl h
  | [t], _ => by simp [joinWith]
  | t :: a :: as, _ => by
    rw [List.flatMap_cons, bar_join (a :: as) (by simp), joinWith_cons _ t (a :: as) (by simp)]
    simp

theorem tokens_join_segs (segs : List (List Str)) (hne : segs ≠ []) (hs : ∀ ts ∈ segs, ts ≠ [])
    (hf : ∀ ts ∈ segs, ∀ t ∈ ts, ':' ∉ t ∧ '|' ∉ t) :
    phaseTexts (join '|' (segs.map (join ':'))) = segs.flatMap fun ts => (segTypes ts.length).zip ts := by
  have hj : ∀ ts ∈ segs, '|' ∉ joinWith ':' ts := by
    intro ts hts
    have := hf ts hts
    clear hf hs hne hts
    induction ts with
    | nil => simp [joinWith]
    | cons t ts ih =>
      cases ts with
      | nil => exact (this t (by simp)).2
      | cons a as =>
        rw [joinWith_cons _ _ _ (by simp)]
        simp only [List.mem_append, List.mem_cons, not_or]
        refine ⟨(this t (by simp)).2, by decide, ?_⟩
        exact ih fun x hx => this x (List.mem_cons_of_mem _ hx)
  unfold phaseTexts
  rw [tokens_eq, spec_join_eq, split_join '|']
  · rw [List.flatMap_map]
    apply flatMap_congr'
    intro ts hts
    rw [tokens_eq, spec_join_eq, split_join ':' ts (hs ts hts) fun t ht => (hf ts hts t ht).1]
  · simpa using hne
  · intro t ht
    obtain ⟨ts, hts, rfl⟩ := List.mem_map.1 ht
    rw [spec_join_eq]; exact hj ts hts

/-- C44 (part): a conversion string made of `|`-separated segments of at least two phases each (or of one
segment only), without empty argument lists, is printed back exactly by `bsdconv_pack`; so parsing, printing
and parsing again gives the same phases, codecs, arguments and types.
Missing: one-phase segments beside others, see `C44_violated`. -/
theorem C44_roundtrip_partial (segs : List (List Str)) (ps : List PhaseD)
    (hne : segs ≠ []) (hs : ∀ ts ∈ segs, ts ≠ []) (hf : ∀ ts ∈ segs, ∀ t ∈ ts, ':' ∉ t ∧ '|' ∉ t)
    (h2 : segs.length = 1 ∨ ∀ ts ∈ segs, 2 ≤ ts.length)
    (hu : unpack (join '|' (segs.map (join ':'))) = some ps)
    (ha : ∀ p ∈ ps, ∀ c ∈ p.codecs, c.argv ≠ some []) :
    pack ps = join '|' (segs.map (join ':')) ∧ unpack (pack ps) = some ps := by
  have hprint : pack ps = join '|' (segs.map (join ':')) := by
    have hps := (unpack_some.1 hu).2
    have hpt := tokens_join_segs segs hne hs hf
    have hph : ∀ q ∈ phaseTexts (join '|' (segs.map (join ':'))), packPhase ⟨q.1, codecsOf q.2⟩ = q.2 := by
      intro q hq
      apply packPhase_parse
      intro c hc
      exact ha _ (by rw [hps]; exact List.mem_map_of_mem hq) c hc
    have hcat : ∀ (l : List (PT × Str)), (∀ q ∈ l, packPhase ⟨q.1, codecsOf q.2⟩ = q.2) →
        (l.map fun p => (⟨p.1, codecsOf p.2⟩ : PhaseD)).flatMap (fun q => packSep q.type ++ packPhase q)
          = l.flatMap fun q => packSep q.1 ++ q.2 := by
      intro l hl
      rw [List.flatMap_map]
      apply flatMap_congr'
      intro q hq
      rw [hl q hq]
    by_cases hall : ∀ ts ∈ segs, 2 ≤ ts.length
    · have hfull := hcat _ hph
      rw [← hps, hpt, segs_print segs hall] at hfull
      have hb : (segs.flatMap fun ts => '|' :: joinWith ':' ts) = '|' :: joinWith '|' (segs.map (joinWith ':')) := by
        rw [← bar_join _ (by simpa using hne), List.flatMap_map]
      rw [hb] at hfull
      cases hpsc : ps with
      | nil => rw [hpsc] at hfull; simp at hfull
      | cons p qs =>
        rw [hpsc, List.flatMap_cons] at hfull
        have hp0 : p.type = .from_ := by
          have : p ∈ ps := by rw [hpsc]; simp
          have h3 : (ps.map (·.type)).head? = some .from_ := by
            rw [hps, hpt]
            cases hsg : segs with
            | nil => exact absurd hsg hne
            | cons ts _ =>
              have := hall ts (by rw [hsg]; simp)
              match ts, this with
              | a :: b :: ts, _ => simp [segTypes]
          rw [hpsc] at h3
          simpa using h3
        rw [hp0] at hfull
        have hfull2 : packPhase p ++ qs.flatMap (fun q => packSep q.type ++ packPhase q) =
            joinWith '|' (segs.map (joinWith ':')) := by
          have := congrArg List.tail hfull
          simpa [packSep] using this
        rw [spec_join_eq]
        show packPhase p ++ qs.flatMap (fun q => packSep q.type ++ packPhase q) = _
        rw [hfull2]
        congr 1
        apply List.map_congr_left
        intro ts _; exact (spec_join_eq _ _).symm
    · rcases h2 with h2 | h2
      · match segs, h2 with
        | [ts], _ =>
          have hl : ts.length = 1 := by
            have := hs ts (by simp)
            have h0 : ts.length ≠ 0 := by simpa using this
            simp at hall; omega
          match ts, hl with
          | [t], _ =>
            rw [hpt] at hph
            rw [hps, hpt]
            simp only [List.flatMap_cons, List.flatMap_nil, List.append_nil, List.length_cons, List.length_nil,
              segTypes, List.map_cons, List.map_nil, join] at hph ⊢
            simp only [Nat.zero_add, Nat.le_refl, if_true, List.replicate_one, List.zip_cons_cons, List.zip_nil_right,
              List.map_cons, List.map_nil] at hph ⊢
            simp only [pack, List.flatMap_nil, List.append_nil]
            exact hph (PT.inter, t) (by simp)
      · exact absurd h2 hall
  exact ⟨hprint, by rw [hprint]; exact hu⟩

example : unpack "UTF-8:NFC#X=1,UPPER:BIG5|BIG5:UTF-8".toList ≠ none ∧
    (unpack "UTF-8:NFC#X=1,UPPER:BIG5|BIG5:UTF-8".toList).map pack =
      some "UTF-8:NFC#X=1,UPPER:BIG5|BIG5:UTF-8".toList := by decide +kernel

/-- C44 is false of the code: `a|b` is parsed as two INTER phases and printed as `a:b`, which parses as a
FROM and a TO phase. -/
theorem C44_violated :
    (unpack "a|b".toList).map pack = some "a:b".toList ∧
    (unpack "a|b".toList).map (·.map (·.type)) = some [.inter, .inter] ∧
    (unpack "a:b".toList).map (·.map (·.type)) = some [.from_, .to_] := by decide +kernel

/-! ### C45 -/

theorem joinWith_length (d : Char) : ∀ (ts : List Str), ts ≠ [] →
    (joinWith d ts).length + 1 = (ts.map (fun t => t.length + 1)).sum
  | [], h => absurd rfl h
  | [t], _ => by simp [joinWith]
  | t :: a :: as, _ => by
    rw [joinWith_cons _ _ _ (by simp), List.map_cons, List.sum_cons, ← joinWith_length d (a :: as) (by simp)]
    simp; omega

theorem packPiece_length (v : Option Str) (t : Str) :
    (packPiece v t).length ≤ t.length + (match v with | some a => a.length + 1 | none => 0) := by
  unfold packPiece
  split
  · simp
  · split <;> omega

theorem packCodec_length (c : CodecD) : (packCodec c).length ≤ c.desc.length +
      argRoom c := by
  have h1 := joinWith_length ',' (pieces c) (pieces_ne c)
  rw [← packCodec_eq] at h1
  have h2 := joinWith_length ',' (splitC ',' c.desc) (splitC_ne _ _)
  rw [join_split] at h2
  have h3 : ∀ l : List Str, ((l.map (packPiece c.argv)).map (fun t => t.length + 1)).sum ≤
      (l.map (fun t => t.length + 1)).sum +
        (match c.argv with | some a => (a.length + 1) * l.length | none => 0) := by
    intro l
    induction l with
    | nil => cases c.argv <;> simp
    | cons t ts ih =>
      have hp := packPiece_length c.argv t
      simp only [List.map_cons, List.sum_cons, List.length_cons]
      cases hv : c.argv with
      | none => rw [hv] at ih hp; simp only at ih hp ⊢; omega
      | some a =>
        rw [hv] at ih hp; simp only [Nat.mul_add, Nat.mul_one] at ih hp ⊢; omega
  have h4 := h3 (splitC ',' c.desc)
  unfold pieces at h1
  rw [split_length] at h4
  unfold argRoom
  cases hv : c.argv with
  | none => rw [hv] at h4 h1; simp only at h4 ⊢; omega
  | some a =>
    rw [hv] at h4 h1; simp only at h4 ⊢
    rw [Nat.add_comm 1]; omega

theorem sum_flatten_nat : ∀ l : List (List Nat), l.flatten.sum = (l.map List.sum).sum
  | [] => rfl
  | a :: l => by simp [sum_flatten_nat l]

theorem packLen_eq (ps : List PhaseD) : packLen ps = (ps.map fun p => (p.codecs.map fun c => c.desc.length +
      argRoom c + 1).sum).sum := by
  unfold packLen
  have gen : ∀ (l : List CodecD) (n : Nat), l.foldl (fun len c => len + c.desc.length +
      argRoom c + 1) n = n + (l.map fun c => c.desc.length +
      argRoom c + 1).sum := by
    intro l
    induction l with
    | nil => simp
    | cons c cs ih => intro n; rw [List.foldl_cons, ih, List.map_cons, List.sum_cons]; omega
  rw [gen, Nat.zero_add, List.map_flatMap, List.flatMap_def, sum_flatten_nat, List.map_map]
  rfl

theorem packPhase_length {p : PhaseD} (h : p.codecs ≠ []) :
    (packPhase p).length + 1 ≤ (p.codecs.map fun c => c.desc.length +
      argRoom c + 1).sum := by
  unfold packPhase
  rw [joinWith_length ',' _ (by simpa using h), List.map_map]
  induction p.codecs with
  | nil => simp
  | cons c cs ih =>
    simp only [List.map_cons, List.sum_cons, Function.comp]
    have := packCodec_length c
    omega

/-- C45: for every instance (at least one phase, every phase with at least one codec; any names, arguments
and types, also after alias expansion), the text printed by `bsdconv_pack` with its terminator fits the
buffer it allocated. -/
theorem C45_pack_fits (ps : List PhaseD) (hne : ps ≠ []) (hc : ∀ p ∈ ps, p.codecs ≠ []) :
    (pack ps).length + 1 ≤ packLen ps := by
  rw [packLen_eq]
  have key : ∀ (l : List PhaseD), (∀ p ∈ l, p.codecs ≠ []) →
      (l.flatMap fun q => packSep q.type ++ packPhase q).length ≤ (l.map fun p => (p.codecs.map fun c => c.desc.length +
      argRoom c + 1).sum).sum := by
    intro l hl
    induction l with
    | nil => simp
    | cons p l ih =>
      have h1 := packPhase_length (hl p (by simp))
      have h2 := ih fun x hx => hl x (by simp [hx])
      have h3 : (packSep p.type).length ≤ 1 := by cases p.type <;> simp [packSep]
      rw [List.flatMap_cons, List.map_cons, List.sum_cons, List.length_append, List.length_append]
      omega
  match ps, hne with
  | p :: ps, _ =>
    have h1 := packPhase_length (hc p (by simp))
    have h2 := key ps fun x hx => hc x (by simp [hx])
    unfold pack
    rw [List.length_append, List.map_cons, List.sum_cons]
    omega

/-- The bound is tight, with arguments and an expanded alias. -/
example : (pack [⟨.from_, [⟨"A,B#x".toList, some "y".toList⟩]⟩, ⟨.to_, [⟨"C".toList, none⟩]⟩]) = "A#y,B#x&y:C".toList ∧
    packLen [⟨.from_, [⟨"A,B#x".toList, some "y".toList⟩]⟩, ⟨.to_, [⟨"C".toList, none⟩]⟩] = 12 := by decide +kernel

/-! ### C46 -/

theorem meaning_some {s : Str} {ps : List PhaseD} (h : unpack s = some ps) :
    meaning s = some (ps.map viewPhase) := by unfold meaning; rw [h]; rfl

/-- A string that parses as one phase has no phase separators. -/
theorem one_phase {t : Str} {q : PhaseD} (h : unpack t = some [q]) :
    SepFree t ∧ TextOk t ∧ q.codecs = codecsOf t := by
  have h1 := unpack_codecs h
  have h2 := (unpack_some.1 h).1
  simp only [List.map_cons, List.map_nil] at h1
  have hlen : (splitP isSep t).length = 1 := by
    have := congrArg List.length h1; simpa using this.symm
  match hs : splitP isSep t, hlen with
  | [u], _ =>
    have hu : u = t := by
      have : ∀ (t u : Str), splitP isSep t = [u] → u = t := by
        intro t
        induction t with
        | nil => intro u h; simp [splitP] at h; exact h
        | cons c cs ih =>
          intro u h
          rw [splitP_cons] at h
          split at h
          · simp at h; exact absurd h.2 (splitP_ne _ _)
          · split at h
            · rename_i a as ha
              simp only [List.cons.injEq] at h
              obtain ⟨h3, rfl⟩ := h
              rw [← h3, ih a ha]
            · rename_i ha; exact absurd ha (splitP_ne _ _)
      exact this t u hs
    subst hu
    rw [hs] at h1 h2
    refine ⟨splitP_mem_free isSep u u (by rw [hs]; simp), h2 u (by simp), by simpa using h1⟩

/-- A codec whose printed pieces all have names. -/
def Named (c : CodecD) : Prop := ∀ x ∈ (pieces c).map parseCodec, x.desc ≠ []

theorem wf_named {c : CodecD} (h : WfC c) : Named c := by
  intro x hx
  rw [pieces_wf h] at hx
  simp at hx; rw [hx]; exact h.ne

theorem new_named {t : Str} (h : TextOk t) : Named (newCodec t) := by
  intro x hx; rw [pieces_new] at hx; exact h x hx

theorem new_pr {t : Str} (h : SepFree t) : Pr (newCodec t) := ⟨h, by simp [newCodec], by simp [newCodec]⟩

/-- Printing an edited conversion and parsing it. -/
theorem meaning_pack {ps : List PhaseD} (hne : ps ≠ [])
    (h : ∀ p ∈ ps, p.type ≠ .other ∧ p.codecs ≠ [] ∧ ∀ c ∈ p.codecs, Pr c ∧ Named c) :
    meaning (pack ps) = some (ps.map fun p =>
      (p.codecs.flatMap fun c => (pieces c).map parseCodec).map fun c => (c.desc, c.argv.getD [])) := by
  have hsh := shape_pack hne fun p hp => ⟨(h p hp).1, (h p hp).2.1, fun c hc => ((h p hp).2.2 c hc).1⟩
  have hok : ∀ t ∈ splitP isSep (pack ps), TextOk t := by
    intro t ht c hc
    have : codecsOf t ∈ (splitP isSep (pack ps)).map codecsOf := List.mem_map_of_mem ht
    rw [hsh] at this
    obtain ⟨p, hp, he⟩ := List.mem_map.1 this
    rw [← he] at hc
    obtain ⟨x, hx, hcx⟩ := List.mem_flatMap.1 hc
    exact ((h p hp).2.2 x hx).2 c hcx
  obtain ⟨ps', hps'⟩ := unpack_exists hok
  rw [meaning_some hps']
  have h1 := unpack_codecs hps'
  rw [hsh] at h1
  have h2 : ps'.map viewPhase = (ps'.map (·.codecs)).map (·.map fun c => (c.desc, c.argv.getD [])) := by
    rw [List.map_map]; rfl
  rw [h2, h1, List.map_map]
  rfl

theorem viewPhase_wf {p : PhaseD} (h : ∀ c ∈ p.codecs, WfC c) :
    (p.codecs.flatMap fun c => (pieces c).map parseCodec).map (fun c => (c.desc, c.argv.getD [])) = viewPhase p :=
  view_wf h

theorem view_new {t : Str} {q : PhaseD} (hq : q.codecs = codecsOf t) (ty : PT) :
    ((PhaseD.mk ty [newCodec t]).codecs.flatMap fun c => (pieces c).map parseCodec).map
      (fun c => (c.desc, c.argv.getD [])) = viewPhase q := by
  simp only [List.flatMap_cons, List.flatMap_nil, List.append_nil]
  rw [pieces_new, ← hq]; rfl

/-- C46 (insert_phase): for every parsable string and every index from `-len` on, the new phase is inserted
at exactly the addressed position (Python's meaning; past the end = appended) and all phases, codecs and
arguments are otherwise unchanged. -/
theorem C46_insert_phase_partial (s t : Str) (ps : List PhaseD) (q : PhaseD) (ty : PT) (n : Int)
    (hs : unpack s = some ps) (ht : unpack t = some [q]) (hty : ty ≠ .other) (hn : -(ps.length : Int) ≤ n) :
    ∃ r i, insertPhase s t ty n = .ok r ∧
      (pyIndex ps.length n = some i ∨ (n ≥ ps.length ∧ i = ps.length)) ∧
      meaning r = some (insertAt (ps.map viewPhase) i (viewPhase q)) := by
  obtain ⟨hne, hwf⟩ := unpack_wf hs
  obtain ⟨hsep, hok, hq⟩ := one_phase ht
  have hlen : 0 < ps.length := List.length_pos_iff.2 hne
  have hidx := C47_phase_index_partial ps.length n hlen hn
  obtain ⟨i, hi, hpi, hil⟩ : ∃ i : Nat, (pyIndex ps.length n = some i ∨ (n ≥ ps.length ∧ i = ps.length)) ∧
      phaseIndex ps.length n = i + 1 ∧ i ≤ ps.length := by
    by_cases h : n ≥ ps.length
    · exact ⟨ps.length, Or.inr ⟨h, rfl⟩, hidx.2.1 h, Nat.le_refl _⟩
    · have : ∃ i, pyIndex ps.length n = some i := by
        unfold pyIndex
        split
        · rw [if_pos (by omega)]; exact ⟨_, rfl⟩
        · exact ⟨_, rfl⟩
      obtain ⟨i, hi⟩ := this
      have := hidx.1 i hi
      refine ⟨i, Or.inl hi, this, ?_⟩
      have := hidx.2.2.2
      omega
  refine ⟨pack (ps.take i ++ ⟨ty, [newCodec t]⟩ :: ps.drop i), i, ?_, hi, ?_⟩
  · unfold insertPhase
    rw [hs]
    simp only [hpi]
    rw [if_pos (by omega)]
    have : ((i : Int) + 1 - 1).toNat = i := by omega
    rw [this]
  · rw [meaning_pack (by simp)]
    · unfold insertAt
      rw [List.map_append, List.map_cons, view_new hq]
      have hm : ∀ l : List PhaseD, (∀ p ∈ l, p ∈ ps) → l.map (fun p =>
          (p.codecs.flatMap fun c => (pieces c).map parseCodec).map fun c => (c.desc, c.argv.getD [])) =
          l.map viewPhase := by
        intro l hl
        apply List.map_congr_left
        intro p hp
        exact viewPhase_wf (hwf p (hl p hp)).2.2
      rw [hm _ (fun p hp => List.mem_of_mem_take hp), hm _ (fun p hp => List.mem_of_mem_drop hp)]
      simp [List.map_take, List.map_drop]
    · intro p hp
      rcases List.mem_append.1 hp with hp | hp
      · have := hwf p (List.mem_of_mem_take hp)
        exact ⟨this.1, this.2.1, fun c hc => ⟨(this.2.2 c hc).pr, wf_named (this.2.2 c hc)⟩⟩
      · rcases List.mem_cons.1 hp with rfl | hp
        · refine ⟨hty, by simp, ?_⟩
          intro c hc
          simp at hc; subst hc
          exact ⟨new_pr hsep, new_named hok⟩
        · have := hwf p (List.mem_of_mem_drop hp)
          exact ⟨this.1, this.2.1, fun c hc => ⟨(this.2.2 c hc).pr, wf_named (this.2.2 c hc)⟩⟩

example : insertPhase "UTF-8:BIG5".toList "NFC#A,UPPER".toList .inter (-1) = .ok "UTF-8:NFC#A,UPPER:BIG5".toList := by
  decide +kernel

theorem py_lt {len : Nat} {n : Int} {i : Nat} (h : pyIndex len n = some i) : i < len ∧ -(len : Int) ≤ n := by
  unfold pyIndex at h
  split at h
  · split at h
    · cases h; omega
    · cases h
  · split at h
    · cases h; omega
    · cases h

/-- C46 (replace_phase): for every valid Python index exactly the addressed phase is replaced. -/
theorem C46_replace_phase_partial (s t : Str) (ps : List PhaseD) (q : PhaseD) (ty : PT) (n : Int) (i : Nat)
    (hs : unpack s = some ps) (ht : unpack t = some [q]) (hty : ty ≠ .other)
    (hn : pyIndex ps.length n = some i) :
    ∃ r, replacePhase s t ty n = .ok r ∧ meaning r = some (spliceAt (ps.map viewPhase) i [viewPhase q]) := by
  obtain ⟨hne, hwf⟩ := unpack_wf hs
  obtain ⟨hsep, hok, hq⟩ := one_phase ht
  obtain ⟨hil, hn'⟩ := py_lt hn
  have hpi := (C47_phase_index_partial ps.length n (by omega) hn').1 i hn
  refine ⟨pack (ps.set i ⟨ty, [newCodec t]⟩), ?_, ?_⟩
  · unfold replacePhase
    rw [hs]
    simp only [hpi]
    rw [if_pos (by omega)]
    have : ((i : Int) + 1 - 1).toNat = i := by omega
    rw [this]
  · have hset : ps.set i ⟨ty, [newCodec t]⟩ = ps.take i ++ ⟨ty, [newCodec t]⟩ :: ps.drop (i + 1) := by
      rw [List.set_eq_take_append_cons_drop, if_pos hil]
    rw [hset, meaning_pack (by simp)]
    · unfold spliceAt
      rw [List.map_append, List.map_cons, view_new hq]
      have hm : ∀ l : List PhaseD, (∀ p ∈ l, p ∈ ps) → l.map (fun p =>
          (p.codecs.flatMap fun c => (pieces c).map parseCodec).map fun c => (c.desc, c.argv.getD [])) =
          l.map viewPhase := by
        intro l hl
        apply List.map_congr_left
        intro p hp
        exact viewPhase_wf (hwf p (hl p hp)).2.2
      rw [hm _ (fun p hp => List.mem_of_mem_take hp), hm _ (fun p hp => List.mem_of_mem_drop hp)]
      simp [List.map_take, List.map_drop]
    · intro p hp
      rcases List.mem_append.1 hp with hp | hp
      · have := hwf p (List.mem_of_mem_take hp)
        exact ⟨this.1, this.2.1, fun c hc => ⟨(this.2.2 c hc).pr, wf_named (this.2.2 c hc)⟩⟩
      · rcases List.mem_cons.1 hp with rfl | hp
        · refine ⟨hty, by simp, ?_⟩
          intro c hc
          simp at hc; subst hc
          exact ⟨new_pr hsep, new_named hok⟩
        · have := hwf p (List.mem_of_mem_drop hp)
          exact ⟨this.1, this.2.1, fun c hc => ⟨(this.2.2 c hc).pr, wf_named (this.2.2 c hc)⟩⟩

example : replacePhase "UTF-8:A:B:BIG5".toList "C,D".toList .inter (-2) = .ok "UTF-8:A:C,D:BIG5".toList := by
  decide +kernel

/-- Shared part of the codec edits: printing after changing the codecs of phase `i`. -/
theorem codec_edit {ps : List PhaseD} (hwf : ∀ p ∈ ps, p.type ≠ .other ∧ p.codecs ≠ [] ∧ ∀ c ∈ p.codecs, WfC c)
    {i : Nat} (hil : i < ps.length) {t : Str} {q : PhaseD} (hsep : SepFree t) (hok : TextOk t)
    (hq : q.codecs = codecsOf t) (a b : List CodecD)
    (ha : ∀ c ∈ a, c ∈ ps[i].codecs) (hb : ∀ c ∈ b, c ∈ ps[i].codecs) :
    meaning (pack (ps.modify i fun p => { p with codecs := a ++ newCodec t :: b })) =
      some (spliceAt (ps.map viewPhase) i
        [a.map (fun c => (c.desc, c.argv.getD [])) ++ viewPhase q ++ b.map (fun c => (c.desc, c.argv.getD []))]) := by
  have hset : (ps.modify i fun p => { p with codecs := a ++ newCodec t :: b }) =
      ps.take i ++ ⟨ps[i].type, a ++ newCodec t :: b⟩ :: ps.drop (i + 1) := by
    rw [List.modify_eq_take_cons_drop hil]
  have hmem : ps[i] ∈ ps := List.getElem_mem hil
  have hwi := hwf _ hmem
  rw [hset, meaning_pack (by simp)]
  · unfold spliceAt
    rw [List.map_append, List.map_cons]
    have hm : ∀ l : List PhaseD, (∀ p ∈ l, p ∈ ps) → l.map (fun p =>
        (p.codecs.flatMap fun c => (pieces c).map parseCodec).map fun c => (c.desc, c.argv.getD [])) =
        l.map viewPhase := by
      intro l hl
      apply List.map_congr_left
      intro p hp
      exact viewPhase_wf (hwf p (hl p hp)).2.2
    rw [hm _ (fun p hp => List.mem_of_mem_take hp), hm _ (fun p hp => List.mem_of_mem_drop hp)]
    have hpart : ∀ l : List CodecD, (∀ c ∈ l, c ∈ ps[i].codecs) →
        (l.flatMap fun c => (pieces c).map parseCodec).map (fun c => (c.desc, c.argv.getD [])) =
        l.map fun c => (c.desc, c.argv.getD []) :=
      fun l hl => view_wf (p := ⟨.from_, l⟩) fun c hc => hwi.2.2 c (hl c hc)
    simp only [List.flatMap_append, List.flatMap_cons, List.map_append]
    rw [hpart a ha, hpart b hb, pieces_new, ← hq]
    simp [List.map_take, List.map_drop, viewPhase]
  · intro p hp
    rcases List.mem_append.1 hp with hp | hp
    · have := hwf p (List.mem_of_mem_take hp)
      exact ⟨this.1, this.2.1, fun c hc => ⟨(this.2.2 c hc).pr, wf_named (this.2.2 c hc)⟩⟩
    · rcases List.mem_cons.1 hp with rfl | hp
      · refine ⟨hwi.1, by simp, ?_⟩
        intro c hc
        simp only [List.mem_append, List.mem_cons] at hc
        rcases hc with hc | rfl | hc
        · exact ⟨(hwi.2.2 c (ha c hc)).pr, wf_named (hwi.2.2 c (ha c hc))⟩
        · exact ⟨new_pr hsep, new_named hok⟩
        · exact ⟨(hwi.2.2 c (hb c hc)).pr, wf_named (hwi.2.2 c (hb c hc))⟩
      · have := hwf p (List.mem_of_mem_drop hp)
        exact ⟨this.1, this.2.1, fun c hc => ⟨(this.2.2 c hc).pr, wf_named (this.2.2 c hc)⟩⟩

theorem codecCount_get {ps : List PhaseD} {i : Nat} (h : i < ps.length) :
    codecCount ps (i + 1) = ps[i].codecs.length := by
  unfold codecCount
  simp [h]

/-- C46 (insert_codec): in the addressed phase the new codecs are inserted at exactly the addressed position
(past the end = appended); everything else is unchanged. -/
theorem C46_insert_codec_partial (s t : Str) (ps : List PhaseD) (q : PhaseD) (np nc : Int) (i : Nat)
    (hs : unpack s = some ps) (ht : unpack t = some [q]) (hp : pyIndex ps.length np = some i)
    (hil : i < ps.length) (hn : -(ps[i].codecs.length : Int) ≤ nc) :
    ∃ r j, insertCodec s t np nc = .ok r ∧
      (pyIndex ps[i].codecs.length nc = some j ∨ (nc ≥ ps[i].codecs.length ∧ j = ps[i].codecs.length)) ∧
      meaning r = some (spliceAt (ps.map viewPhase) i
        [(viewPhase ps[i]).take j ++ viewPhase q ++ (viewPhase ps[i]).drop j]) := by
  obtain ⟨hne, hwf⟩ := unpack_wf hs
  obtain ⟨hsep, hok, hq⟩ := one_phase ht
  have hcne := (hwf _ (List.getElem_mem hil)).2.1
  have hk : 0 < codecCount ps (i + 1) := by
    rw [codecCount_get hil]; exact List.length_pos_iff.2 hcne
  obtain ⟨j, hj, hjl, hj1, hj2⟩ := C47_codec_index_partial ps.length (codecCount ps) np nc i hp hk
    (by rw [codecCount_get hil]; exact hn)
  rw [codecCount_get hil] at hj1 hj2
  have hpi := (C47_phase_index_partial ps.length np (by omega) (py_lt hp).2).1 i hp
  have hi0 : (phaseIndex ps.length np - 1).toNat = i := by omega
  have hjl' : j ≤ ps[i].codecs.length := by rw [codecCount_get hil] at hjl; exact hjl
  refine ⟨pack (ps.modify i fun p => { p with codecs := ps[i].codecs.take j ++ newCodec t :: ps[i].codecs.drop j }),
    j, ?_, ?_, ?_⟩
  · unfold insertCodec
    rw [hs]
    simp only [hj, hi0]
    rw [if_pos (by omega)]
    congr 2
    rw [List.modify_eq_take_cons_drop hil, List.modify_eq_take_cons_drop hil]
    simp
  · by_cases h : nc ≥ ps[i].codecs.length
    · exact Or.inr ⟨h, hj2 h⟩
    · left
      have : ∃ k, pyIndex ps[i].codecs.length nc = some k := by
        unfold pyIndex
        split
        · rw [if_pos (by omega)]; exact ⟨_, rfl⟩
        · exact ⟨_, rfl⟩
      obtain ⟨k, hk'⟩ := this
      rw [hj1 k hk', hk']
  · rw [codec_edit hwf hil hsep hok hq _ _ (fun c hc => List.mem_of_mem_take hc) (fun c hc => List.mem_of_mem_drop hc)]
    simp [viewPhase, List.map_take, List.map_drop]

example : insertCodec "UTF-8:A,B#x:BIG5".toList "C,D".toList 1 (-1) = .ok "UTF-8:A,C,D,B#x:BIG5".toList := by
  decide +kernel

/-- C46 (replace_codec): for valid Python indices exactly the addressed codec is replaced. -/
theorem C46_replace_codec_partial (s t : Str) (ps : List PhaseD) (q : PhaseD) (np nc : Int) (i j : Nat)
    (hs : unpack s = some ps) (ht : unpack t = some [q]) (hp : pyIndex ps.length np = some i)
    (hil : i < ps.length) (hn : pyIndex ps[i].codecs.length nc = some j) :
    ∃ r, replaceCodec s t np nc = .ok r ∧
      meaning r = some (spliceAt (ps.map viewPhase) i
        [(viewPhase ps[i]).take j ++ viewPhase q ++ (viewPhase ps[i]).drop (j + 1)]) := by
  obtain ⟨hne, hwf⟩ := unpack_wf hs
  obtain ⟨hsep, hok, hq⟩ := one_phase ht
  obtain ⟨hjl, hn'⟩ := py_lt hn
  obtain ⟨j', hj, _, hj1, _⟩ := C47_codec_index_partial ps.length (codecCount ps) np nc i hp
    (by rw [codecCount_get hil]; omega) (by rw [codecCount_get hil]; exact hn')
  rw [codecCount_get hil] at hj1
  have hjj := hj1 j hn
  subst hjj
  have hpi := (C47_phase_index_partial ps.length np (by omega) (py_lt hp).2).1 i hp
  have hi0 : (phaseIndex ps.length np - 1).toNat = i := by omega
  refine ⟨pack (ps.modify i fun p => { p with codecs := ps[i].codecs.take j' ++ newCodec t :: ps[i].codecs.drop (j' + 1) }),
    ?_, ?_⟩
  · unfold replaceCodec
    rw [hs]
    simp only [hj, hi0]
    rw [if_pos (by rw [codecCount_get hil]; omega)]
    congr 2
    rw [List.modify_eq_take_cons_drop hil, List.modify_eq_take_cons_drop hil]
    simp only [Int.toNat_natCast]
    rw [List.set_eq_take_append_cons_drop, if_pos hjl]
  · rw [codec_edit hwf hil hsep hok hq _ _ (fun c hc => List.mem_of_mem_take hc) (fun c hc => List.mem_of_mem_drop hc)]
    simp [viewPhase, List.map_take, List.map_drop]

example : replaceCodec "UTF-8:A,B#x:BIG5".toList "C".toList (-2) 1 = .ok "UTF-8:A,C:BIG5".toList := by
  decide +kernel

/-- C46 is false of the code outside the index range: every index at or past the end makes `replace_phase`
write outside the phase array. -/
theorem C46_replace_past_end_violated (s t : Str) (ps : List PhaseD) (ty : PT) (n : Int)
    (hs : unpack s = some ps) (h : n ≥ ps.length) : replacePhase s t ty n = .ub := by
  unfold replacePhase
  rw [hs]
  simp only
  rw [if_neg]
  unfold phaseIndex
  rw [if_pos h]; omega

/-- C46 is false of the code: insertion can change the type of a neighbouring phase.  Inserting an INTER
phase in front of `a|b:c` makes `a`, which was an INTER phase, a TO phase. -/
theorem C46_types_violated :
    (unpack "a|b:c".toList).map (·.map (·.type)) = some [.inter, .from_, .to_] ∧
    insertPhase "a|b:c".toList "x".toList .inter 0 = .ok "x:a|b:c".toList ∧
    (unpack "x:a|b:c".toList).map (·.map (·.type)) = some [.from_, .to_, .from_, .to_] := by decide +kernel

/-! ### C48 -/

/-- The characters white-space insensitivity is about. -/
def blank : List Char := [' ', '\t', '\n', '\r', '\x0c']

/-- C48: two strings that differ only in white space give the same outcome of `bsdconv_create`. -/
theorem C48_whitespace (env : Env) (fuel : Nat) (s t : Str)
    (h : s.filter (fun c => c ∉ blank) = t.filter (fun c => c ∉ blank)) :
    create env fuel s = create env fuel t := by
  have hb : ∀ s : Str, strip s = s.filter (fun c => c ∉ blank) := by
    intro s
    unfold strip
    apply List.filter_congr
    intro c _
    have : Char.ofNat 12 = '\x0c' := rfl
    simp only [isBlank, blank, this]
    by_cases h1 : c = ' ' <;> by_cases h2 : c = '\t' <;> by_cases h3 : c = '\n' <;> by_cases h4 : c = '\r' <;>
      by_cases h5 : c = '\x0c' <;> simp [h1, h2, h3, h4, h5]
  unfold create
  rw [hb, hb, h]

example : " UTF-8 :\n BIG5\t".toList.filter (fun c => c ∉ blank) = "UTF-8:BIG5".toList := by decide +kernel

/-! ### C49 -/

theorem missingCodec_spec {env : Env} {ty : PT} : ∀ {cs : List CodecD},
    (missingCodec env ty cs = none → ∀ c ∈ cs, env.exists_ ty c.desc = true) ∧
    (∀ r, missingCodec env ty cs = some r → cs = r.1 ++ r.2.1 :: r.2.2)
  | [] => by simp [missingCodec]
  | c :: cs => by
    have ih := missingCodec_spec (env := env) (ty := ty) (cs := cs)
    unfold missingCodec
    by_cases h : env.exists_ ty c.desc = true
    · rw [if_pos h]
      constructor
      · intro hn x hx
        rcases List.mem_cons.1 hx with rfl | hx
        · exact h
        · exact ih.1 (by simpa using hn) x hx
      · intro r hr
        cases hm : missingCodec env ty cs with
        | none => rw [hm] at hr; simp at hr
        | some r' =>
          rw [hm] at hr
          simp only [Option.map_some, Option.some.injEq] at hr
          rw [← hr]
          simp only [List.cons_append, List.cons.injEq, true_and]
          exact ih.2 r' hm
    · rw [if_neg h]
      constructor
      · intro hn; cases hn
      · intro r hr; cases hr; rfl

theorem missing_spec {env : Env} : ∀ {ps : List PhaseD},
    (missing env ps = none → ∀ p ∈ ps, ∀ c ∈ p.codecs, env.exists_ p.type c.desc = true) ∧
    (∀ sp, missing env ps = some sp →
      ps = sp.before ++ ⟨sp.type, sp.left ++ sp.codec :: sp.right⟩ :: sp.after)
  | [] => by simp [missing]
  | p :: ps => by
    have ih := missing_spec (env := env) (ps := ps)
    have hc := missingCodec_spec (env := env) (ty := p.type) (cs := p.codecs)
    unfold missing
    cases hm : missingCodec env p.type p.codecs with
    | some r =>
      refine ⟨fun h => by simp at h, ?_⟩
      intro sp hsp
      simp only [Option.some.injEq] at hsp
      subst hsp
      simp only [List.nil_append]
      rw [← hc.2 r hm]
    | none =>
      constructor
      · intro hn x hx
        rcases List.mem_cons.1 hx with rfl | hx
        · exact hc.1 hm
        · exact ih.1 (by simpa using hn) x hx
      · intro sp hsp
        cases hm2 : missing env ps with
        | none => rw [hm2] at hsp; simp at hsp
        | some sp' =>
          rw [hm2] at hsp
          simp only [Option.map_some, Option.some.injEq] at hsp
          subst hsp
          simp only [List.cons_append, List.cons.injEq, true_and]
          exact ih.2 sp' hm2

/-- Codec and phase separators. -/
def sep3 (c : Char) : Bool := c = ',' ∨ c = ':' ∨ c = '|'

theorem sep3_false {c : Char} (h1 : isSep c = false) (h2 : c ≠ ',') : sep3 c = false := by
  unfold isSep at h1
  unfold sep3
  rw [decide_eq_false_iff_not] at h1 ⊢
  exact fun h => h.elim h2 h1

/-- All codec names a text mentions: the text cut at `,`, `:` and `|`, arguments dropped. -/
def namesIn (s : Str) : List Str := (splitP sep3 s).map fun t => (parseCodec t).desc

/-- Cutting at phase separators and then at commas is cutting at all separators. -/
theorem split_three : ∀ s : Str, (splitP isSep s).flatMap (splitC ',') = splitP sep3 s
  | [] => rfl
  | c :: cs => by
    have ih := split_three cs
    rw [splitP_cons, splitP_cons]
    by_cases h1 : isSep c = true
    · rw [if_pos h1, if_pos (by simp only [isSep, sep3, decide_eq_true_eq] at h1 ⊢; exact Or.inr h1)]
      rw [List.flatMap_cons, ih]
      rfl
    · rw [if_neg h1]
      cases hs : splitP isSep cs with
      | nil => exact absurd hs (splitP_ne _ _)
      | cons t ts =>
        rw [hs] at ih
        simp only [List.flatMap_cons] at ih ⊢
        rw [splitC_cons]
        by_cases h2 : c = ','
        · rw [if_pos h2, if_pos (by simp [sep3, h2]), ← ih]
          rfl
        · rw [if_neg h2, if_neg (by rw [sep3_false (by simpa using h1) h2]; simp)]
          cases ht : splitC ',' t with
          | nil => exact absurd ht (splitC_ne _ _)
          | cons a as =>
            rw [ht] at ih
            rw [← ih]
            rfl

theorem splitP_cut (p : Char → Bool) (d : Char) (hd : p d = true) : ∀ (t s : Str),
    splitP p (t ++ d :: s) = splitP p t ++ splitP p s
  | [], s => by rw [List.nil_append, splitP_cons, if_pos hd]; rfl
  | c :: cs, s => by
    rw [List.cons_append, splitP_cons, splitP_cons, splitP_cut p d hd cs s]
    split
    · rfl
    · cases h : splitP p cs with
      | nil => exact absurd h (splitP_ne _ _)
      | cons a as => rfl

theorem namesIn_cut (d : Char) (hd : sep3 d = true) (t s : Str) :
    namesIn (t ++ d :: s) = namesIn t ++ namesIn s := by
  unfold namesIn; rw [splitP_cut _ d hd, List.map_append]

theorem namesIn_join : ∀ (ts : List Str), ts ≠ [] → namesIn (joinWith ',' ts) = ts.flatMap namesIn
  | [], h => absurd rfl h
  | [t], _ => by simp [joinWith]
  | t :: a :: as, _ => by
    rw [joinWith_cons ',' t (a :: as) (by simp), namesIn_cut _ (by decide), namesIn_join (a :: as) (by simp)]
    rfl

/-- The names printed are those of the codecs printed. -/
theorem namesIn_pack {ps : List PhaseD} (hne : ps ≠ []) (h : ∀ p ∈ ps, p.type ≠ .other ∧ p.codecs ≠ []) :
    namesIn (pack ps) = ps.flatMap fun p => p.codecs.flatMap fun c => namesIn (packCodec c) := by
  have hp : ∀ p ∈ ps, namesIn (packPhase p) = p.codecs.flatMap fun c => namesIn (packCodec c) := by
    intro p hp
    unfold packPhase
    rw [namesIn_join _ (by simpa using (h p hp).2), List.flatMap_map]
  have hsep : ∀ p ∈ ps, ∃ d, sep3 d = true ∧ packSep p.type = [d] := by
    intro p hp
    have := (h p hp).1
    cases ht : p.type
    · exact ⟨'|', by decide, rfl⟩
    · exact ⟨':', by decide, rfl⟩
    · exact ⟨':', by decide, rfl⟩
    · exact absurd ht this
  have key : ∀ (l : List PhaseD) (u : Str), (∀ p ∈ l, p ∈ ps) →
      namesIn (u ++ l.flatMap fun q => packSep q.type ++ packPhase q) =
      namesIn u ++ l.flatMap fun p => p.codecs.flatMap fun c => namesIn (packCodec c) := by
    intro l
    induction l with
    | nil => intro u _; simp
    | cons p l ih =>
      intro u hl
      obtain ⟨d, hd, he⟩ := hsep p (hl p (by simp))
      rw [List.flatMap_cons, he, List.append_assoc, List.singleton_append, namesIn_cut _ hd,
        ih _ (fun x hx => hl x (by simp [hx])), List.flatMap_cons, hp p (hl p (by simp))]
  cases ps with
  | nil => exact absurd rfl hne
  | cons p ps =>
    unfold pack
    rw [key ps _ (fun x hx => List.mem_cons_of_mem _ hx), List.flatMap_cons, hp p List.mem_cons_self]

theorem packCodec_wf {c : CodecD} (h : WfC c) : namesIn (packCodec c) = [c.desc] := by
  have hp : packCodec c = packPiece c.argv c.desc := by
    rw [packCodec_eq]; unfold pieces; rw [split_free _ _ h.noComma]; rfl
  have hfree : ∀ x ∈ packPiece c.argv c.desc, sep3 x = false := by
    intro x hx
    refine sep3_false (packPiece_sep h.pr h.sep x hx) ?_
    rintro rfl
    exact packPiece_comma h.pr h.noComma hx
  rw [hp]
  unfold namesIn
  rw [splitP_free _ _ hfree]
  simp only [List.map_cons, List.map_nil]
  congr 1
  unfold packPiece
  split
  · rw [if_pos (strchr_none.2 h.noHash)]
    unfold parseCodec
    rw [strchr_append _ h.noHash]
  · unfold parseCodec
    rw [strchr_none.2 h.noHash]

theorem packCodec_new (a : Str) : packCodec ⟨a, none⟩ = a := by
  rw [packCodec_eq]
  unfold pieces
  have : packPiece none = id := by funext t; rfl
  rw [this, List.map_id, join_split]

/-- A table of aliases is well-founded: names can be weighted so that the codecs of every definition — except
that of a name defined as itself — together weigh less than the name it defines. -/
def WellFounded (env : Env) (w : Str → Nat) : Prop :=
  ∀ ty name def_, env.alias_ ty name = some def_ → def_ = name ∨ ((namesIn def_).map w).sum < w name

/-- C49 (part): for every well-founded alias table (and every list of installed codecs), resolving a
conversion string ends — after at most as many rounds as the string weighs — and if it succeeds every
codec of the result exists; a codec with arguments that is an alias makes the code read freed memory
(`ub`, see `C59_alias_args_violated`).
Missing: tables with cyclic definitions, see `C49_cycle_violated`. -/
theorem C49_terminates_partial (env : Env) (w : Str → Nat) (hw : WellFounded env w) (s : Str) (fuel : Nat)
    (hf : ((namesIn (strip s)).map w).sum < fuel) :
    create env fuel s = .fail ∨ create env fuel s = .ub ∨
    ∃ ps, create env fuel s = .ok ps ∧ ∀ p ∈ ps, ∀ c ∈ p.codecs, env.exists_ p.type c.desc = true := by
  unfold create
  generalize strip s = s at hf
  induction fuel generalizing s with
  | zero => omega
  | succ fuel ih =>
    unfold createLoop
    cases hu : unpack s with
    | none => exact Or.inl rfl
    | some ps =>
      simp only
      obtain ⟨hne, hwf⟩ := unpack_wf hu
      cases hm : missing env ps with
      | none => exact Or.inr (Or.inr ⟨ps, rfl, missing_spec.1 hm⟩)
      | some sp =>
        simp only
        split
        · exact Or.inl rfl
        · cases ha : env.alias_ sp.type sp.codec.desc with
          | none => exact Or.inl rfl
          | some a =>
            simp only
            split
            · exact Or.inr (Or.inl rfl)
            · split
              · exact Or.inl rfl
              · rename_i hv harg hself
                apply ih
                have hps := missing_spec.2 sp hm
                have hphase : (⟨sp.type, sp.left ++ sp.codec :: sp.right⟩ : PhaseD) ∈ ps := by rw [hps]; simp
                have hwp := hwf _ hphase
                -- names before
                have hbefore : namesIn s = (ps.flatMap fun p => p.codecs).map (·.desc) := by
                  unfold namesIn
                  rw [← split_three, List.flatMap_def (f := fun p : PhaseD => p.codecs), unpack_codecs hu,
                    ← List.flatMap_def, List.map_flatMap, List.map_flatMap]
                  congr 1
                  funext t
                  unfold codecsOf
                  rw [List.map_map]
                  rfl
                have hpr : ∀ p ∈ sp.replace a, p.type ≠ .other ∧ p.codecs ≠ [] := by
                  intro p hp
                  unfold Spot.replace at hp
                  rcases List.mem_append.1 hp with hp | hp
                  · have := hwf p (by rw [hps]; simp [hp])
                    exact ⟨this.1, this.2.1⟩
                  · rcases List.mem_cons.1 hp with rfl | hp
                    · exact ⟨hwp.1, by simp⟩
                    · have := hwf p (by rw [hps]; simp [hp])
                      exact ⟨this.1, this.2.1⟩
                rw [namesIn_pack (by simp [Spot.replace]) hpr]
                have hkeepC : ∀ cs : List CodecD, (∀ c ∈ cs, WfC c) →
                    (cs.flatMap fun c => namesIn (packCodec c)) = cs.map (·.desc) := by
                  intro cs
                  induction cs with
                  | nil => intro _; rfl
                  | cons c cs ih2 =>
                    intro h
                    rw [List.flatMap_cons, ih2 fun x hx => h x (by simp [hx]), packCodec_wf (h c (by simp))]
                    rfl
                have hkeep : ∀ l : List PhaseD, (∀ p ∈ l, p ∈ ps) →
                    (l.flatMap fun p => p.codecs.flatMap fun c => namesIn (packCodec c)) =
                    (l.flatMap fun p => p.codecs).map (·.desc) := by
                  intro l
                  induction l with
                  | nil => intro _; rfl
                  | cons p l ih2 =>
                    intro h
                    rw [List.flatMap_cons, ih2 fun x hx => h x (by simp [hx]),
                      hkeepC _ (hwf p (h p (by simp))).2.2, List.flatMap_cons, List.map_append]
                have hle := (hw _ _ _ ha).resolve_left hself
                unfold Spot.replace
                rw [hbefore, hps] at hf
                simp only [List.flatMap_append, List.flatMap_cons, List.map_append, List.map_cons, List.sum_append,
                  List.sum_cons, packCodec_new] at hf ⊢
                rw [hkeep sp.before (fun p hp => by rw [hps]; simp [hp]),
                  hkeep sp.after (fun p hp => by rw [hps]; simp [hp]),
                  hkeepC sp.left (fun c hc => hwp.2.2 c (by simp [hc])),
                  hkeepC sp.right (fun c hc => hwp.2.2 c (by simp [hc]))]
                omega

/-- The shipped alias table of a phase type. -/
def shippedTable : PT → List (String × String)
  | .from_ => fromAliases
  | .inter => interAliases
  | .to_ => toAliases
  | .other => []

/-- The shipped aliases, with any set of installed modules. -/
def shipped (exists_ vital : PT → Str → Bool) : Env where
  exists_ := exists_
  vital := vital
  alias_ := fun ty n => ((shippedTable ty).find? fun p => p.1.toList = n).map (·.2.toList)

/-- Weight of a name over the three tables: longest chain of expansions, `k` levels deep. -/
def weigh : Nat → Str → Nat
  | 0, _ => 0
  | k + 1, n => ([fromAliases, interAliases, toAliases].map fun tab =>
      match tab.find? fun p => p.1.toList = n with
      | some p => 1 + ((namesIn p.2.toList).map (weigh k)).sum
      | none => 0).foldl max 0

/-- The shipped alias tables are well-founded, so `C49_terminates_partial` applies to them whatever modules
are installed. -/
theorem shipped_wellFounded (e v : PT → Str → Bool) : WellFounded (shipped e v) (weigh 5) := by
  have h : ∀ ty : PT, ∀ p ∈ shippedTable ty, ((namesIn p.2.toList).map (weigh 5)).sum < weigh 5 p.1.toList := by
    intro ty
    cases ty <;> decide +kernel
  intro ty n d hd
  unfold shipped at hd
  simp only [Option.map_eq_some_iff] at hd
  obtain ⟨p, hp, rfl⟩ := hd
  have hn := List.find?_some hp
  simp only [decide_eq_true_eq] at hn
  rw [← hn]
  exact .inr (h ty p (List.mem_of_find?_eq_some hp))

/-- An installation with a few of the shipped modules. -/
def exEnv : Env := shipped
  (fun _ n => n ∈ ["ASCII".toList, "_UTF-8".toList, "_UAO250".toList, "_CP950".toList, "_NFD".toList, "_NFC".toList,
    "_NF-HANGUL-DECOMPOSITION".toList, "_NF-ORDER".toList, "_NF-HANGUL-COMPOSITION".toList])
  (fun _ n => n = "ASCII".toList)

/-- Resolution works through two levels of aliases, and through definitions with several phases. -/
example : create exEnv 20 "UTF-8 : NFC : BIG5".toList = .ok
      [⟨.from_, [⟨"ASCII".toList, none⟩, ⟨"_UTF-8".toList, none⟩]⟩,
       ⟨.inter, [⟨"_NFD".toList, none⟩]⟩, ⟨.inter, [⟨"_NF-HANGUL-DECOMPOSITION".toList, none⟩]⟩,
       ⟨.inter, [⟨"_NF-ORDER".toList, none⟩]⟩, ⟨.inter, [⟨"_NFC".toList, none⟩]⟩,
       ⟨.inter, [⟨"_NF-HANGUL-COMPOSITION".toList, none⟩]⟩,
       ⟨.to_, [⟨"_CP950".toList, none⟩, ⟨"ASCII".toList, none⟩]⟩] := by decide +kernel

/-- Two aliases defined by each other. -/
def cycEnv : Env where
  exists_ := fun _ _ => false
  vital := fun _ _ => false
  alias_ := fun _ n => if n = "A".toList then some "B".toList else if n = "B".toList then some "A".toList else none

/-- C49 is false of the code: with two aliases defined by each other `bsdconv_create` never returns. -/
theorem C49_cycle_violated (fuel : Nat) : create cycEnv fuel "A".toList = .running := by
  have h1 : unpack "A".toList = some [⟨.inter, [⟨"A".toList, none⟩]⟩] := by decide +kernel
  have h2 : unpack "B".toList = some [⟨.inter, [⟨"B".toList, none⟩]⟩] := by decide +kernel
  have m1 : missing cycEnv [⟨.inter, [⟨"A".toList, none⟩]⟩] = some ⟨[], .inter, [], ⟨"A".toList, none⟩, [], []⟩ := rfl
  have m2 : missing cycEnv [⟨.inter, [⟨"B".toList, none⟩]⟩] = some ⟨[], .inter, [], ⟨"B".toList, none⟩, [], []⟩ := rfl
  have a1 : cycEnv.alias_ .inter "A".toList = some "B".toList := by decide +kernel
  have a2 : cycEnv.alias_ .inter "B".toList = some "A".toList := by decide +kernel
  have p1 : pack ((⟨[], .inter, [], ⟨"A".toList, none⟩, [], []⟩ : Spot).replace "B".toList) = "B".toList := by decide +kernel
  have p2 : pack ((⟨[], .inter, [], ⟨"B".toList, none⟩, [], []⟩ : Spot).replace "A".toList) = "A".toList := by decide +kernel
  have n1 : ¬ ("B".toList = "A".toList) := by decide +kernel
  have n2 : ¬ ("A".toList = "B".toList) := by decide +kernel
  have v : ∀ ty n, ¬ cycEnv.vital ty n = true := by intro ty n; simp [cycEnv]
  have key : ∀ fuel, createLoop cycEnv fuel "A".toList = .running ∧ createLoop cycEnv fuel "B".toList = .running := by
    intro fuel
    induction fuel with
    | zero => exact ⟨rfl, rfl⟩
    | succ fuel ih =>
      have hA : createLoop cycEnv (fuel + 1) "A".toList = createLoop cycEnv fuel "B".toList := by
        rw [createLoop, h1]; simp only [m1, a1, p1, if_neg (v _ _), if_neg n1]; rfl
      have hB : createLoop cycEnv (fuel + 1) "B".toList = createLoop cycEnv fuel "A".toList := by
        rw [createLoop, h2]; simp only [m2, a2, p2, if_neg (v _ _), if_neg n2]; rfl
      exact ⟨by rw [hA]; exact ih.2, by rw [hB]; exact ih.1⟩
  have : strip "A".toList = "A".toList := by decide
  unfold create
  rw [this]
  exact (key fuel).1

/-! ### C58 -/

/-- C58 is false of the code: for every conversion string, `bsdconv_unpack` writes one element past the end
of its array of phase texts (the NULL that ends the last `strsep` loop). -/
theorem C58_unpack_bounds_violated (s : Str) : phaseOffSize s ∈ phaseOffWrites s := by
  have hcount : ∀ s : Str, ((splitC '|' s).map fun seg => (splitC ':' seg).length).sum =
      (s.filter (fun c => c = ':' ∨ c = '|')).length + 1 := by
    intro s
    have h1 : ((splitC '|' s).map fun seg => (splitC ':' seg).length).sum = (splitP isSep s).length := by
      rw [← split_two, List.length_flatMap]
    rw [h1]
    have : ∀ s : Str, (splitP isSep s).length = (s.filter isSep).length + 1 := by
      intro s
      induction s with
      | nil => rfl
      | cons c cs ih =>
        rw [splitP_cons]
        by_cases hc : isSep c = true
        · rw [if_pos hc, List.filter_cons_of_pos hc]; simp [ih]
        · rw [if_neg hc, List.filter_cons_of_neg hc]
          cases hs : splitP isSep cs with
          | nil => exact absurd hs (splitP_ne _ _)
          | cons a as => rw [hs] at ih; simpa using ih
    rw [this]
    rfl
  have key : ∀ (segs : List Str) (i : Nat), segs ≠ [] →
      i + (segs.map fun seg => (splitC ':' seg).length).sum ∈ phaseOffWritesFrom i segs := by
    intro segs
    induction segs with
    | nil => intro i h; exact absurd rfl h
    | cons seg segs ih =>
      intro i _
      unfold phaseOffWritesFrom
      simp only [tokens_eq, List.map_cons, List.sum_cons]
      rw [List.mem_append]
      by_cases hs : segs = []
      · left
        subst hs
        simp
      · right
        rw [← Nat.add_assoc]
        exact ih _ hs
  have := key (splitC '|' s) 1 (splitC_ne _ _)
  rw [hcount] at this
  unfold phaseOffSize phaseOffWrites
  rw [tokens_eq]
  rw [Nat.add_comm]
  exact this

/-! ### C59 -/

/-- C59 is false of the code: whenever the first unresolved codec of a conversion is an alias and was given
arguments, `bsdconv_create` prints the arguments from the freed codec description. -/
theorem C59_alias_args_violated (env : Env) (fuel : Nat) (s : Str) (ps : List PhaseD) (sp : Spot) (d a : Str)
    (hu : unpack (strip s) = some ps) (hm : missing env ps = some sp)
    (hv : env.vital sp.type sp.codec.desc = false) (hd : env.alias_ sp.type sp.codec.desc = some d)
    (ha : sp.codec.argv = some a) : create env (fuel + 1) s = .ub := by
  unfold create createLoop
  rw [hu]
  simp only [hm, hv, hd, ha]
  rfl

example : create exEnv 5 "UTF-8#CESU:ASCII".toList = .ub := by decide +kernel

end Verif.Props
