import Verif.Model.Cli
import Verif.Props.Reinit
import Verif.Props.Stage
/-
C84: the command line program on many files; C85: what `-i` leaves of the files whenever the program is killed.
-/
namespace Verif.Props
open Verif.Spec
open Verif.Engine hiding Datum step
open Verif.Cli

variable {π : Type} {st : Nat → Static π} {ip : Nat → Nat → π → π}

/-! ### C84 -/

/-- The file names start with none that the program takes for an option. -/
def NoOption (files : List String) : Prop := ∀ f, files.head? = some f → f ≠ "-i" ∧ f ≠ "-l"

/-- C84.  `-i` is recognised, any number of times, between the conversion and the first file, and nowhere else: the rest are files,
whatever they are called. -/
theorem C84_options (c : String) (hc : c ≠ "-l") (n : Nat) (files : List String) (h : NoOption files) :
    parse (c :: (List.replicate n "-i" ++ files)) = .convert c (decide (0 < n)) files := by
  have hf : ∀ b, options c b files = .convert c b files := by
    intro b
    cases files with
    | nil => rfl
    | cons f fs => obtain ⟨h1, h2⟩ := h f rfl; simp [options, h1, h2]
  have : ∀ n b, options c b (List.replicate n "-i" ++ files) = .convert c (b || decide (0 < n)) files := by
    intro n
    induction n with
    | zero => intro b; simpa using hf b
    | succ n ih => intro b; simp only [List.replicate_succ, List.cons_append, options, if_true]; rw [ih]; simp
  simp [parse, hc, this]

example : parse ["UTF-8:UTF-16LE", "-i", "a", "-i"] = .convert "UTF-8:UTF-16LE" true ["a", "-i"] := by decide

theorem file_pending {ins ins' : Ins π} {as : List Arg} {a : Arg} {ds : List Delivery} (h : Session st ins (as ++ [a]) ds ins')
    (ha : a.mode = .file) : ins'.pending = [] := by
  induction as generalizing ins ds with
  | nil =>
    cases h with
    | cons hc hs =>
      cases hs
      obtain ⟨m, x, _, _, h3⟩ := hc
      rw [h3, ha]
      simp [Ins.pending, Ins.setLast, deliver, Queue.empty]
  | cons b as ih =>
    cases h with
    | cons hc hs => exact ih hs

/-- What a process converting nothing but the file with contents `data` may write. -/
def Alone (st : Nat → Static π) (ip : Nat → Nat → π → π) (new : Ins π) (data out : List Nat) : Prop :=
  ∃ ins', ConvFile st ip new data out ins'

/-- An instance some files were converted with. -/
inductive Worked (st : Nat → Static π) (ip : Nat → Nat → π → π) (new : Ins π) : Ins π → Prop
  | new : Worked st ip new new
  | file {ins ins' : Ins π} {reads : List (List Nat)} {out : List Nat} : Worked st ip new ins → ConvReads st ip ins reads out ins' →
      Worked st ip new ins'

/-- `new` is a newly created instance, and all codecs of the conversion are put into their first state by `bsdconv_init` (C07 proves it for the codecs modelled, but three). -/
structure Resets (st : Nat → Static π) (ip : Nat → Nat → π → π) (new : Ins π) : Prop where
  ierr : new.ierr = 0
  oerr : new.oerr = 0
  resets : ∀ k j, Resettable ((st k).codecs j) (ip k j)
  tidy : ∀ k j, Engine.Tidy ((st k).codecs j)
  phases : 1 ≤ new.phasen

theorem frame_init (new : Ins π) : SameFrame st new (new.init st ip) := by
  refine ⟨rfl, by simp [Ins.init], by simp [Ins.init], by simp [Ins.init], by simp [Ins.init], by simp [Ins.init], ?_, ?_⟩
  · intro k j hj
    simp only [Ins.init]
    have hj' : ¬ j ≤ (st k).codecn := by omega
    by_cases hk : k ≤ new.phasen
    · simp only [hk, if_true]
      by_cases h1 : k = 0
      · subst h1; simp
      · simp [h1, Ph.reset, hj']
    · simp [hk]
  · intro k hk
    have : ¬ k ≤ new.phasen := by omega
    simp [Ins.init, this]

theorem SameFrame.trans {a b c : Ins π} (h : SameFrame st a b) (g : SameFrame st b c) : SameFrame st a c :=
  ⟨g.1.trans h.1, g.2.trans h.2, g.3.trans h.3, g.4.trans h.4, g.5.trans h.5, g.6.trans h.6, fun k j hj => (g.7 k j hj).trans (h.7 k j hj),
    fun k hk => (g.8 k (by rw [h.1]; exact hk)).trans (h.8 k hk)⟩

theorem SameFrame.symm {a b : Ins π} (h : SameFrame st a b) : SameFrame st b a :=
  ⟨h.1.symm, h.2.symm, h.3.symm, h.4.symm, h.5.symm, h.6.symm, fun k j hj => (h.7 k j hj).symm,
      fun k hk => (h.8 k (by rw [← h.1]; exact hk)).symm⟩

theorem worked_frame {new ins : Ins π} (hr : Resets st ip new) (h : Worked st ip new ins) : SameFrame st new ins := by
  induction h with
  | new => exact ⟨rfl, rfl, rfl, rfl, rfl, rfl, fun _ _ _ => rfl, fun _ _ => rfl⟩
  | @file a b reads out _ hc ih =>
    obtain ⟨ds, hs, _⟩ := hc
    have h1 : Selects st (a.init st ip) := by
      intro k h1 h2
      have h3 : k ≤ a.phasen := h2
      have h4 : k ≠ 0 := by omega
      simp [Ins.init, h3, h4, Ph.reset]
    exact (frame_session hr.tidy hs hr.phases (ih.trans (frame_init a)) h1).1

/-- C84, the core: an instance that converted any files, in whatever state it was left by them, converts the next file as a new instance
does, given the same chunks, and adds the same to the error counters. -/
theorem C84_again {new ins : Ins π} (hr : Resets st ip new) (h : Worked st ip new ins) {reads : List (List Nat)} {out : List Nat} {ins' : Ins π} :
    (ConvReads st ip ins reads out ins' → ∃ new', ConvReads st ip new reads out new' ∧
      ins'.ierr + new.ierr = new'.ierr + ins.ierr ∧ ins'.oerr + new.oerr = new'.oerr + ins.oerr) ∧
    ∀ new', ConvReads st ip new reads out new' → ∃ ins', ConvReads st ip ins reads out ins' := by
  have hf := worked_frame hr h
  constructor
  · rintro ⟨ds, hs, rfl⟩
    obtain ⟨new', h1, _, h3, h4⟩ := C07_reusable hr.resets hf hs
    exact ⟨new', ⟨ds, h1, rfl⟩, by omega, by omega⟩
  · rintro new' ⟨ds, hs, rfl⟩
    obtain ⟨ins', h1, _, _, _⟩ := C07_reusable hr.resets hf.symm hs
    exact ⟨ins', ds, h1, rfl⟩

/-- The contents of the files up to the first that cannot be opened. -/
def opened (fs : Fs) : List String → List (List Nat)
  | [] => []
  | f :: files => match fs f with
    | none => []
    | some d => d :: opened fs files

/-- One file of the command line: its name and contents, what a process of its own writes for it, and the input and output errors that
process counts. -/
structure Item where
  name : String
  data : List Nat
  out : List Nat
  inErrors : Nat
  outErrors : Nat

/-- The item is right. -/
def Item.Right (st : Nat → Static π) (ip : Nat → Nat → π → π) (new : Ins π) (x : Item) : Prop :=
  ∃ ins', ConvFile st ip new x.data x.out ins' ∧ ins'.ierr = x.inErrors ∧ ins'.oerr = x.outErrors

/-- Counters as they are printed. -/
def shown (a b : Nat) : List (String × Nat) := [("IERR", a), ("OERR", b)].filter (fun c => c.2 != 0)

/-- The reports if the errors of all files so far are added up, starting from `a` and `b`. -/
def addedUp (a b : Nat) : List Item → List (String × List (String × Nat))
  | [] => []
  | x :: xs => (x.name, shown (a + x.inErrors) (b + x.outErrors)) :: addedUp (a + x.inErrors) (b + x.outErrors) xs

/-- C84.  `bsdconv conversion file ...`: what goes to stdout is, one after the other, what separate processes write for the files, up
to the first that cannot be opened; the exit status is 0 exactly if all can be opened.  The report printed with each file, though, tells
the errors of this file and all before it. -/
theorem C84_print {new ins : Ins π} {fs : Fs} {files : List String} {out : List Nat} {rs : List (String × List (String × Nat))} {last : Ins π}
    {code : Nat} (hr : Resets st ip new) (hw : Worked st ip new ins) (h : Print st ip fs ins files out rs last code) :
    ∃ xs : List Item, (∀ x ∈ xs, x.Right st ip new) ∧ xs.map Item.data = opened fs files ∧ xs.map Item.name = files.take xs.length ∧
      out = xs.flatMap Item.out ∧ rs = addedUp ins.ierr ins.oerr xs ∧ (code = 0 ↔ ∀ f ∈ files, fs f ≠ none) := by
  induction h with
  | done => exact ⟨[], by simp, rfl, rfl, rfl, rfl, by simp⟩
  | missing ins files hm => exact ⟨[], by simp, by simp [opened, hm], rfl, rfl, rfl, by simp [hm]⟩
  | @file a b c f files data out outs rs code h1 h2 h3 ih =>
    obtain ⟨reads, hrd, hc⟩ := h2
    obtain ⟨xs, e1, e2, e3, e4, e5, e6⟩ := ih (.file hw hc)
    obtain ⟨new', hn, n1, n2⟩ := (C84_again hr hw).1 hc
    have g1 := hr.ierr
    have g2 := hr.oerr
    refine ⟨⟨f, data, out, new'.ierr, new'.oerr⟩ :: xs, ?_, by simp [opened, h1, e2], by simp [e3], by simp [e4], ?_, by simp [h1, e6]⟩
    · intro x hx
      rcases List.mem_cons.1 hx with rfl | hx
      · exact ⟨new', ⟨reads, hrd, hn⟩, rfl, rfl⟩
      · exact e1 x hx
    · have k1 : b.ierr = a.ierr + new'.ierr := by omega
      have k2 : b.oerr = a.oerr + new'.oerr := by omega
      simp only [addedUp, e5, k1, k2, report, shown]

/-- C84.  The program always gets through the files if it gets through each alone. -/
theorem C84_prints {new ins : Ins π} {fs : Fs} (files : List String) (hr : Resets st ip new) (hw : Worked st ip new ins)
    (h : ∀ d ∈ opened fs files, ∃ out, Alone st ip new d out) : ∃ out rs last code, Print st ip fs ins files out rs last code := by
  induction files generalizing ins with
  | nil => exact ⟨_, _, _, _, .done ins⟩
  | cons f files ih =>
    cases hf : fs f with
    | none => exact ⟨_, _, _, _, .missing ins files hf⟩
    | some d =>
      simp only [opened, hf, List.mem_cons, forall_eq_or_imp] at h
      obtain ⟨⟨out, new', reads, hrd, hn⟩, h⟩ := h
      obtain ⟨ins', hc⟩ := (C84_again hr hw (ins' := new)).2 new' hn
      obtain ⟨o, rs, l, code, hp⟩ := ih (.file hw hc) h
      exact ⟨_, _, _, _, .file hf ⟨reads, hrd, hc⟩ hp⟩

/-- C84.  With the conversions of C63, C76 and C79: a file with a text is converted to that text, whatever the chunks in which it is read. -/
theorem C84_text {new : Ins π} {b : Target} {n : Nat} {f : List Nat → List Nat} {data cps : List Nat} (hn : new.phasen = n + 2)
    (ha : ReadsAs (st 1) (initPriv st ip new 1) data cps) (hc : ∀ cp ∈ cps, Scalar cp) (hf : Stage st ip new 2 n f) (hb : b.Is (st (n + 2))) :
    (∃ out, Alone st ip new data out) ∧
    ∀ out, Alone st ip new data out → out = ((f cps).filter b.takes).flatMap b.enc := by
  have key : ∀ reads, Reads data reads → ∃ ins', ConvReads st ip new reads (((f cps).filter b.takes).flatMap b.enc) ins' := by
    intro reads hr
    obtain ⟨ds, ins', k1, k2, _, _⟩ := C79_convert hn ha hc hf hb (reads.map (fun c => ⟨some c, false, .file⟩)) ⟨some [], true, .file⟩
      (by simp) rfl (by simp only [List.mem_append, List.mem_map, List.mem_singleton]; rintro x (⟨c, _, rfl⟩ | rfl) <;> simp) (by
        rw [List.filterMap_append, List.filterMap_map, ← hr.1]
        simp [Function.comp_def])
    refine ⟨ins', ds, k1, ?_⟩
    rw [← k2, file_pending k1 rfl]; simp
  constructor
  · have hr : ∃ reads, Reads data reads := by
      refine ⟨data.map (fun x => [x]), ?_, ?_⟩
      · clear ha key
        induction data with
        | nil => rfl
        | cons x xs ih => simp [ih]
      · simp only [List.mem_map]; rintro c ⟨x, _, rfl⟩; simp
    obtain ⟨reads, hr⟩ := hr
    obtain ⟨ins', h⟩ := key reads hr
    exact ⟨_, ins', reads, hr, h⟩
  · rintro out ⟨ins', reads, hr, ds, h1, rfl⟩
    obtain ⟨ins'', ds', h2, h3⟩ := key reads hr
    obtain ⟨rfl, _⟩ := h1.unique h2
    exact h3.symm

theorem tidy_utf8 (o : Utf8.Opts) : Engine.Tidy (Utf8.codec o) := by
  refine ⟨(tidy_machine (Utf8.machine o)).1, ?_⟩
  intro f hf l
  obtain rfl := Option.some.inj hf
  exact ⟨rfl, fun j hj => by simp [hj]⟩

theorem u816_resets : Resets utf8To16 (fun _ _ _ => Utf8.Priv.zero) utf8Ins := by
  refine ⟨rfl, rfl, ?_, ?_, by decide⟩
  · intro k j
    by_cases hk : k = 1
    · subst hk
      by_cases hj : j = 0
      · subst hj; exact resettable_table rfl rfl _
      · simp only [utf8To16, if_true, hj, if_false]; exact C07_utf8 {}
    · simp only [utf8To16, hk, if_false]; exact C07_encoder _ _
  · intro k j
    by_cases hk : k = 1
    · subst hk
      by_cases hj : j = 0
      · subst hj; exact tidy_table rfl rfl
      · simp only [utf8To16, if_true, hj, if_false]; exact tidy_utf8 {}
    · simp only [utf8To16, hk, if_false]; exact tidy_encoder _

/-- The claim that the report of a file tells its errors fails: of the two files the second is sound, but the report says that it had an
error, the one of the first. -/
theorem C84_report_violated : ∃ (fs : Fs) (out : List Nat) (rs : List (String × List (String × Nat))) (last : Ins Utf8.Priv),
    fs "a" = some [0xFF, 0x41] ∧ fs "b" = some [0x42] ∧
    Print utf8To16 (fun _ _ _ => .zero) fs utf8Ins ["a", "b"] out rs last 0 ∧
    out = [0x41, 0x00, 0x42, 0x00] ∧ rs = [("a", [("IERR", 1)]), ("b", [("IERR", 1)])] := by
  refine ⟨fun f => if f = "a" then some [0xFF, 0x41] else if f = "b" then some [0x42] else none, _, _, _, rfl, rfl,
    .file (data := [0xFF, 0x41]) (by decide) ⟨[[0xFF, 0x41]], ⟨rfl, by decide⟩, _,
      .cons (call_eval 120 (by decide +kernel)) (.cons (call_eval 120 (by decide +kernel)) (.nil _)), rfl⟩
    (.file (data := [0x42]) (by decide) ⟨[[0x42]], ⟨rfl, by decide⟩, _,
      .cons (call_eval 120 (by decide +kernel)) (.cons (call_eval 120 (by decide +kernel)) (.nil _)), rfl⟩ (.done _)), by decide +kernel, by decide +kernel⟩

/-! ### C85 -/

theorem after_writes (fs : Fs) (t : String) (c : List Nat) (ws : List (List Nat)) (h : fs t = some c) :
    fs.afterAll (ws.map (FileEvent.write t)) = fs.set t (some (c ++ ws.flatten)) := by
  induction ws generalizing fs c with
  | nil => funext q; by_cases hq : q = t <;> simp [Fs.afterAll, Fs.set, hq, h]
  | cons w ws ih =>
    have : fs.afterAll ((w :: ws).map (FileEvent.write t)) = (fs.set t (some (c ++ w))).afterAll (ws.map (FileEvent.write t)) := by
      simp [Fs.afterAll, Fs.after, h]
    rw [this, ih (fs.set t (some (c ++ w))) (c ++ w) (by simp [Fs.set])]
    funext q
    by_cases hq : q = t <;> simp [Fs.set, hq]

theorem afterAll_append (fs : Fs) (a b : List FileEvent) : fs.afterAll (a ++ b) = (fs.afterAll a).afterAll b := by
  simp [Fs.afterAll]

theorem temp_ne {f t : String} (h : TempName f t) : t ≠ f := by
  rintro rfl
  obtain ⟨x, _, h⟩ := h
  have := congrArg List.length h
  simp at this

/-- The files when all went well. -/
theorem replaced {fs : Fs} {f t : String} (ht : TempName f t) (ws : List (List Nat)) :
    fs.afterAll (replaceSteps f t ws) = (fs.set t none).set f (some ws.flatten) := by
  have hne := temp_ne ht
  have h1 : fs.afterAll (replaceSteps f t ws)
      = (((fs.after (.create t)).afterAll (ws.map (FileEvent.write t))).afterAll [.unlink f, .rename t f]) := by
    simp [replaceSteps, Fs.afterAll]
  rw [h1, after_writes _ t [] ws (by simp [Fs.after, Fs.set])]
  funext q
  by_cases hq : q = f
  · subst hq; simp [Fs.afterAll, Fs.after, Fs.set, hne, Ne.symm hne]
  · by_cases hqt : q = t
    · subst hqt; simp [Fs.afterAll, Fs.after, Fs.set, hq]
    · simp [Fs.afterAll, Fs.after, Fs.set, hq, hqt]

/-- The files when the program dies after the first `n` steps: the old file and a part of the new one beside it; or no file and the whole
new one beside it; or the new file. -/
theorem crash_one {fs : Fs} {f t : String} (ht : TempName f t) (hfree : fs t = none) (ws : List (List Nat)) (n : Nat) :
    let now := fs.afterAll ((replaceSteps f t ws).take n)
    (∀ p, p ≠ f → p ≠ t → now p = fs p) ∧
    ((now f = fs f ∧ (now t = none ∨ ∃ m, now t = some (ws.take m).flatten)) ∨
     (now f = none ∧ now t = some ws.flatten) ∨ (now f = some ws.flatten ∧ now t = none)) := by
  have hne := temp_ne ht
  intro now
  rcases Nat.lt_or_ge n 1 with h0 | h0
  · obtain rfl : n = 0 := by omega
    exact ⟨fun _ _ _ => rfl, .inl ⟨rfl, .inl hfree⟩⟩
  obtain ⟨k, rfl⟩ : ∃ k, n = k + 1 := ⟨n - 1, by omega⟩
  have hc : (fs.after (.create t)) t = some [] := by simp [Fs.after, Fs.set]
  rcases Nat.lt_or_ge ws.length k with h1 | h1
  · rcases Nat.lt_or_ge (ws.length + 1) k with h2 | h2
    · have e : now = fs.afterAll (replaceSteps f t ws) := by
        show fs.afterAll ((replaceSteps f t ws).take (k + 1)) = _
        rw [List.take_of_length_le (by simp [replaceSteps]; omega)]
      rw [e, replaced ht]
      refine ⟨fun p h3 h4 => by simp [Fs.set, h3, h4], .inr (.inr ⟨by simp [Fs.set], by simp [Fs.set, hne]⟩)⟩
    · obtain rfl : k = ws.length + 1 := by omega
      have e : now = ((fs.after (.create t)).afterAll (ws.map (FileEvent.write t))).after (.unlink f) := by
        show fs.afterAll ((replaceSteps f t ws).take (ws.length + 1 + 1)) = _
        have : (ws.map (FileEvent.write t)).take (ws.length + 1) = ws.map (FileEvent.write t) := List.take_of_length_le (by simp)
        simp [replaceSteps, Fs.afterAll, List.take_append, this]
      rw [e, after_writes _ t [] ws hc]
      refine ⟨fun p h3 h4 => by simp [Fs.after, Fs.set, h3, h4], .inr (.inl ⟨by simp [Fs.after, Fs.set], by simp [Fs.after, Fs.set, hne]⟩)⟩
  · have e : now = (fs.after (.create t)).afterAll ((ws.take k).map (FileEvent.write t)) := by
      show fs.afterAll ((replaceSteps f t ws).take (k + 1)) = _
      have : k - ws.length = 0 := by omega
      simp [replaceSteps, Fs.afterAll, List.take_append, this, List.map_take]
    rw [e, after_writes _ t [] _ hc]
    refine ⟨fun p h3 h4 => by simp [Fs.after, Fs.set, h4], .inl ⟨by simp [Fs.after, Fs.set, Ne.symm hne], .inr ⟨k, by simp [Fs.set]⟩⟩⟩

/-- C85.  When the program has gone through all files, each of them holds its contents converted as many times as it was named, every other
file is as it was, and there are no new files. -/
theorem C85_done {new ins : Ins π} {fs : Fs} {files : List String} {es : List FileEvent} (hr : Resets st ip new) (hw : Worked st ip new ins)
    (h : InPlace st ip ins fs files es 0) (p : String) :
    (fs p = none → fs.afterAll es p = none) ∧
    ∀ d, fs p = some d → ∃ d', fs.afterAll es p = some d' ∧ Converted (Alone st ip new) (files.count p) d d' := by
  generalize hcode : 0 = code at h
  induction h with
  | done => exact ⟨fun h => h, fun d hd => ⟨d, hd, .zero d⟩⟩
  | missing => simp at hcode
  | @file a b fs f t files data out ws es code h1 h2 h3 h4 h5 h6 ih =>
    obtain ⟨reads, hrd, hc⟩ := h2
    obtain ⟨i1, i2⟩ := ih (.file hw hc) hcode
    obtain ⟨new', hn, _⟩ := (C84_again hr hw).1 hc
    rw [afterAll_append]
    rw [replaced h3] at i1 i2 ⊢
    have hne := temp_ne h3
    constructor
    · intro hp
      apply i1
      have : p ≠ f := by rintro rfl; rw [h1] at hp; cases hp
      by_cases hpt : p = t <;> simp [Fs.set, this, hpt, hp, hne]
    · intro d hd
      have hpt : p ≠ t := by rintro rfl; rw [h4] at hd; cases hd
      by_cases hpf : p = f
      · subst hpf
        rw [h1] at hd
        obtain rfl := Option.some.inj hd
        obtain ⟨d', e1, e2⟩ := i2 out (by simp [Fs.set, h5])
        refine ⟨d', e1, ?_⟩
        rw [List.count_cons_self]
        exact .succ ⟨new', reads, hrd, hn⟩ e2
      · obtain ⟨d', e1, e2⟩ := i2 d (by simp [Fs.set, hpf, hpt, hd])
        refine ⟨d', e1, ?_⟩
        rw [List.count_cons_of_ne (Ne.symm hpf)]
        exact e2

/-- C85.  The program may be killed at any moment (after the first `n` steps on the files), or stop at a file that cannot be opened:
no contents are lost.  For each file there is then a file - itself, or one with the name `mkstemp` made of it - that holds its contents,
converted at most as many times as it was named; a file not named is as it was; and new files have names made by `mkstemp`. -/
theorem C85_crash {new ins : Ins π} {fs : Fs} {files : List String} {es : List FileEvent} {code : Nat} (hr : Resets st ip new)
    (hw : Worked st ip new ins) (h : InPlace st ip ins fs files es code) (n : Nat) (p : String) :
    (∀ d, fs p = some d → ∃ q d' k, (q = p ∨ TempName p q) ∧ fs.afterAll (es.take n) q = some d' ∧ k ≤ files.count p ∧
      Converted (Alone st ip new) k d d') ∧
    (p ∉ files → (∀ f ∈ files, ¬ TempName f p) → fs.afterAll (es.take n) p = fs p) ∧
    (∀ d, fs p = some d → p ∉ files → fs.afterAll (es.take n) p = some d) := by
  induction h generalizing n with
  | done => simp only [List.take_nil]; exact ⟨fun d hd => ⟨p, d, 0, .inl rfl, hd, Nat.zero_le _, .zero d⟩, fun _ _ => rfl, fun _ h _ => h⟩
  | missing => simp only [List.take_nil]; exact ⟨fun d hd => ⟨p, d, 0, .inl rfl, hd, Nat.zero_le _, .zero d⟩, fun _ _ => rfl, fun _ h _ => h⟩
  | @file a b fs f t files data out ws es code h1 h2 h3 h4 h5 h6 ih =>
    obtain ⟨reads, hrd, hc⟩ := h2
    obtain ⟨new', hn, _⟩ := (C84_again hr hw).1 hc
    have hA : Alone st ip new data out := ⟨new', reads, hrd, hn⟩
    have hne := temp_ne h3
    rcases Nat.lt_or_ge n (replaceSteps f t ws).length with hl | hl
    · rw [List.take_append_of_le_length (by omega)]
      obtain ⟨c1, c2⟩ := crash_one h3 h4 ws n
      refine ⟨?_, ?_, ?_⟩
      · intro d hd
        have hpt : p ≠ t := by rintro rfl; rw [h4] at hd; cases hd
        by_cases hpf : p = f
        · subst hpf
          rw [h1] at hd
          obtain rfl := Option.some.inj hd
          rcases c2 with ⟨k1, _⟩ | ⟨_, k2⟩ | ⟨k1, _⟩
          · exact ⟨p, data, 0, .inl rfl, k1.trans h1, Nat.zero_le _, .zero _⟩
          · exact ⟨t, out, 1, .inr h3, by rw [k2, h5], by simp, .succ hA (.zero _)⟩
          · exact ⟨p, out, 1, .inl rfl, by rw [k1, h5], by simp, .succ hA (.zero _)⟩
        · exact ⟨p, d, 0, .inl rfl, (c1 p hpf hpt).trans hd, Nat.zero_le _, .zero _⟩
      · intro hp hq
        refine c1 p (fun e => hp (by simp [e])) ?_
        rintro rfl
        exact hq f (by simp) h3
      · intro d hd hp
        have hpt : p ≠ t := by rintro rfl; rw [h4] at hd; cases hd
        exact (c1 p (fun e => hp (by simp [e])) hpt).trans hd
    · obtain ⟨m, rfl⟩ := Nat.le.dest hl
      rw [List.take_length_add_append, afterAll_append]
      obtain ⟨i1, i2, i3⟩ := ih (.file hw hc) m
      have hfs := replaced (fs := fs) h3 ws
      refine ⟨?_, ?_, ?_⟩
      · intro d hd
        have hpt : p ≠ t := by rintro rfl; rw [h4] at hd; cases hd
        by_cases hpf : p = f
        · subst hpf
          rw [h1] at hd
          obtain rfl := Option.some.inj hd
          obtain ⟨q, d', k, j1, j2, j3, j4⟩ := i1 out (by rw [hfs]; simp [Fs.set, h5])
          exact ⟨q, d', k + 1, j1, j2, by rw [List.count_cons_self]; omega, .succ hA j4⟩
        · obtain ⟨q, d', k, j1, j2, j3, j4⟩ := i1 d (by rw [hfs]; simp [Fs.set, hpf, hpt, hd])
          exact ⟨q, d', k, j1, j2, by rw [List.count_cons_of_ne (Ne.symm hpf)]; exact j3, j4⟩
      · intro hp hq
        rw [i2 (fun e => hp (by simp [e])) (fun g hg => hq g (by simp [hg])), hfs]
        have hpt : p ≠ t := by rintro rfl; exact hq f (by simp) h3
        have hpf : p ≠ f := fun e => hp (by simp [e])
        simp [Fs.set, hpt, hpf]
      · intro d hd hp
        have hpt : p ≠ t := by rintro rfl; rw [h4] at hd; cases hd
        have hpf : p ≠ f := fun e => hp (by simp [e])
        exact i3 d (by rw [hfs]; simp [Fs.set, hpt, hpf, hd]) (fun e => hp (by simp [e]))

/-- C85 has no more to give: the claim that at any moment the file is there, with the old contents or the new ones, fails in every run.
Between `unlink` and `rename` it does not exist. -/
theorem C85_atomic_violated {ins : Ins π} {fs : Fs} {f : String} {files : List String} {es : List FileEvent} {code : Nat}
    (h : InPlace st ip ins fs (f :: files) es code) (hf : fs f ≠ none) : ∃ n, fs.afterAll (es.take n) f = none := by
  cases h with
  | missing _ _ _ hm => exact absurd hm hf
  | @file _ b _ _ t _ data out ws es code h1 h2 h3 h4 h5 h6 =>
    have hne := temp_ne h3
    refine ⟨ws.length + 2, ?_⟩
    rw [List.take_append_of_le_length (by simp [replaceSteps])]
    have : (ws.map (FileEvent.write t)).take (ws.length + 1) = ws.map (FileEvent.write t) := List.take_of_length_le (by simp)
    have e : fs.afterAll ((replaceSteps f t ws).take (ws.length + 2))
        = ((fs.after (.create t)).afterAll (ws.map (FileEvent.write t))).after (.unlink f) := by
      simp [replaceSteps, Fs.afterAll, List.take_append, this]
    rw [e]
    simp [Fs.after, Fs.set]

/-- C85.  The claim that contents are lost only if the conversion loses them fails when the disk is full or reading fails: neither is
noticed, the file is replaced by the beginning of what it should be, and the old contents are in no file (but those that had them before). -/
theorem C85_fault_violated {ins : Ins π} {fs : Fs} {f : String} {got fits : Nat} {es : List FileEvent}
    (h : Faulty st ip ins fs f got fits es) :
    ∃ data out ins1, fs f = some data ∧ ConvFile st ip ins (data.take got) out ins1 ∧ fs.afterAll es f = some (out.take fits) ∧
      ∀ p c, p ≠ f → fs.afterAll es p = some c → fs p = some c := by
  obtain ⟨data, out, ins1, t, ws, h1, h2, h3, h4, h5, rfl⟩ := h
  refine ⟨data, out, ins1, h1, h2, by rw [replaced h3]; simp [Fs.set, h5], ?_⟩
  intro p c hp
  rw [replaced h3]
  by_cases hpt : p = t <;> simp [Fs.set, hp, hpt, temp_ne h3]

/-- Two small files. -/
def twoFiles : Fs := fun f => if f = "a" then some [0x41, 0xC3, 0xA9] else if f = "b" then some [0x42] else none

-- A run of `bsdconv UTF-8:UTF-16LE -i a b`; the file is read in two chunks and written in two.
example : Resets utf8To16 (fun _ _ _ => Utf8.Priv.zero) utf8Ins ∧ ∃ es, InPlace utf8To16 (fun _ _ _ => .zero) utf8Ins twoFiles ["a", "b"] es 0 ∧
    es.length = 9 ∧ twoFiles.afterAll es "a" = some [0x41, 0x00, 0xE9, 0x00] ∧ twoFiles.afterAll es "b" = some [0x42, 0x00] ∧
    twoFiles.afterAll (es.take 4) "a" = none := by
  refine ⟨u816_resets, _, .file (t := "a.QxZ3k9") (ws := [[0x41, 0x00, 0xE9], [0x00]]) (data := [0x41, 0xC3, 0xA9]) (by decide)
    ⟨[[0x41, 0xC3], [0xA9]], ⟨rfl, by decide⟩, _,
      .cons (call_eval 120 (by decide +kernel)) (.cons (call_eval 120 (by decide +kernel)) (.cons (call_eval 120 (by decide +kernel)) (.nil _))), rfl⟩
    ⟨"QxZ3k9".toList, by decide, by decide⟩ (by decide) (by decide +kernel)
    (.file (t := "b.000000") (ws := [[0x42, 0x00]]) (data := [0x42]) (by decide) ⟨[[0x42]], ⟨rfl, by decide⟩, _,
      .cons (call_eval 120 (by decide +kernel)) (.cons (call_eval 120 (by decide +kernel)) (.nil _)), rfl⟩
      ⟨"000000".toList, by decide, by decide⟩ (by decide) (by decide +kernel) (.done _ _)), by decide, by decide, by decide, by decide⟩

-- The same with a disk that has room for one byte: the file is cut.
example : ∃ es, Faulty utf8To16 (fun _ _ _ => .zero) utf8Ins twoFiles "a" 3 1 es ∧ twoFiles.afterAll es "a" = some [0x41] := by
  refine ⟨_, ⟨[0x41, 0xC3, 0xA9], _, _, "a.QxZ3k9", [[0x41]], by decide, ⟨[[0x41, 0xC3, 0xA9]], ⟨rfl, by decide⟩, _,
      .cons (call_eval 120 (by decide +kernel)) (.cons (call_eval 120 (by decide +kernel)) (.nil _)), rfl⟩,
      ⟨"QxZ3k9".toList, by decide, by decide⟩, by decide, by decide +kernel, rfl⟩, by decide⟩

end Verif.Props
