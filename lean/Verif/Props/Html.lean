import Verif.Model.Html
import Verif.Props.Transcode
import Verif.Props.Entity
import Verif.Props.Inter
/-
C87: HTML pictures of characters.
-/
namespace Verif.Props
open Verif.Spec
open Verif.Engine hiding Datum step
open Verif.Inter (plain)
open Verif.Html
open Verif.Escape (hexDigit hex2)

variable {π : Type}

/-! ### Digits -/

theorem hexDigit_char : ∀ n, n < 16 → (Nat.digitChar n).toUpper.toNat = hexDigit n := by decide +kernel

theorem capitalHex_small {n : Nat} (h : n < 16) : capitalHex n = [hexDigit n] := by
  rw [capitalHex, Nat.toDigits_of_lt_base h]
  simp [hexDigit_char n h]

theorem capitalHex_step {n : Nat} (h : 16 ≤ n) : capitalHex n = capitalHex (n / 16) ++ [hexDigit (n % 16)] := by
  rw [capitalHex, Nat.toDigits_of_base_le (by decide) h, List.map_append]
  simp [capitalHex, hexDigit_char (n % 16) (Nat.mod_lt _ (by decide))]

theorem hexNum_eq (n : Nat) : hexNum n = capitalHex n := by
  induction n using Nat.strongRecOn with
  | ind n ih =>
    unfold hexNum
    split
    · rename_i h; exact (capitalHex_small h).symm
    · rename_i h; rw [ih _ (by omega), ← capitalHex_step (by omega)]

theorem capital_even (n : Nat) : capitalHexEven n = if (capitalHex n).length % 2 = 1 then 48 :: capitalHex n else capitalHex n := by
  simp only [capitalHexEven, capitalHex, List.length_map]
  rfl

theorem hex2_even {b : Nat} (h : b < 256) : hex2 b = capitalHexEven b := by
  rw [capital_even]
  by_cases h1 : b < 16
  · rw [capitalHex_small h1]
    simp [hex2, Nat.div_eq_of_lt h1, Nat.mod_eq_of_lt h1, hexDigit]
  · rw [capitalHex_step (by omega), capitalHex_small (by omega)]
    simp [hex2, Nat.mod_eq_of_lt (show b / 16 < 16 by omega)]

theorem capitalHex_byte {n b : Nat} (hn : 0 < n) (hb : b < 256) : capitalHex (n * 256 + b) = capitalHex n ++ hex2 b := by
  rw [capitalHex_step (by omega), capitalHex_step (n := (n * 256 + b) / 16) (by omega)]
  simp only [hex2, List.append_assoc, List.cons_append, List.nil_append]
  rw [show (n * 256 + b) / 16 / 16 = n by omega, show (n * 256 + b) / 16 % 16 = b / 16 % 16 by omega, show (n * 256 + b) % 16 = b % 16 by omega]

theorem hex2_map {bs : List Nat} (h : IsBytes bs) : bs.flatMap hex2 = bs.flatMap capitalHexEven := by
  induction bs with
  | nil => rfl
  | cons b bs ih =>
    rw [List.flatMap_cons, List.flatMap_cons, ih (fun x hx => h x (by simp [hx])), hex2_even (h b (by simp))]

theorem capitalBytes_append {bs : List Nat} (hne : bs ≠ []) (c : Nat) : capitalBytes (bs ++ [c]) = capitalBytes bs ++ capitalHexEven c := by
  match bs, hne with
  | b :: bs, _ => simp [capitalBytes]

/-- The digits of the bytes of a number are its numeral. -/
theorem capitalBytes_number (n : Nat) : capitalBytes (beBytes n) = capitalHex n := by
  induction n using Nat.strongRecOn with
  | ind n ih =>
    unfold beBytes
    split
    · simp [capitalBytes]
    · rename_i h
      rw [capitalBytes_append (beBytes_ne _), ih _ (by omega), ← hex2_even (Nat.mod_lt _ (by decide)),
        ← capitalHex_byte (by omega) (Nat.mod_lt _ (by decide))]
      congr 1
      omega

theorem even_number (n : Nat) : (beBytes n).flatMap capitalHexEven = capitalHexEven n := by
  induction n using Nat.strongRecOn with
  | ind n ih =>
    unfold beBytes
    split
    · simp
    · rename_i h
      rw [List.flatMap_append, ih _ (by omega)]
      simp only [List.flatMap_cons, List.flatMap_nil, List.append_nil]
      rw [← hex2_even (b := n % 256) (Nat.mod_lt _ (by decide)), capital_even, capital_even]
      have e : capitalHex n = capitalHex (n / 256) ++ hex2 (n % 256) := by
        rw [← capitalHex_byte (by omega) (Nat.mod_lt _ (by decide))]
        congr 1
        omega
      rw [e, List.length_append, show (hex2 (n % 256)).length = 2 from rfl, Nat.add_mod_right]
      split <;> simp

theorem hexDigit_inj : ∀ a, a < 16 → ∀ b, b < 16 → hexDigit a = hexDigit b → a = b := by decide

/-- Different numbers have different numerals. -/
theorem capitalHex_inj : ∀ a b, capitalHex a = capitalHex b → a = b := by
  have len : ∀ n, 1 ≤ (capitalHex n).length := by
    intro n
    by_cases h : n < 16
    · rw [capitalHex_small h]; simp
    · rw [capitalHex_step (by omega)]; simp
  intro a
  induction a using Nat.strongRecOn with
  | ind a ih =>
    intro b h
    by_cases ha : a < 16 <;> by_cases hb : b < 16
    · rw [capitalHex_small ha, capitalHex_small hb] at h
      exact hexDigit_inj a ha b hb (by simpa using h)
    · rw [capitalHex_small ha, capitalHex_step (n := b) (by omega)] at h
      have h1 := congrArg List.length h
      have h2 := len (b / 16)
      simp only [List.length_append, List.length_cons, List.length_nil] at h1
      omega
    · rw [capitalHex_small hb, capitalHex_step (n := a) (by omega)] at h
      have h1 := congrArg List.length h
      have h2 := len (a / 16)
      simp only [List.length_append, List.length_cons, List.length_nil] at h1
      omega
    · rw [capitalHex_step (n := a) (by omega), capitalHex_step (n := b) (by omega)] at h
      obtain ⟨h1, h2⟩ := List.append_inj' h rfl
      have e1 := ih _ (by omega) _ h1
      have e2 := hexDigit_inj _ (Nat.mod_lt _ (by decide)) _ (Nat.mod_lt _ (by decide)) (by simpa using h2)
      omega

/-- C87.  Different characters have different pictures. -/
theorem C87_distinct (a b : Nat) (h : picture a = picture b) : a = b := by
  unfold picture at h
  exact capitalHex_inj a b (List.append_cancel_left (List.append_cancel_right h))

/-! ### Buffers -/

/-- The overrun flag is about what is in the buffer. -/
def Tight (b : Buf) : Prop := b.over = decide (b.cap < b.text.length + 1)

theorem tight_put {b : Buf} (h : Tight b) (s : List Nat) : Tight (b.put s) := by
  unfold Tight at h ⊢
  rw [Bool.eq_iff_iff] at h ⊢
  simp only [Buf.put, Bool.or_eq_true, decide_eq_true_eq, List.length_append] at h ⊢
  rw [h]
  omega

theorem put_text (b : Buf) (s : List Nat) : (b.put s).text = b.text ++ s ∧ (b.put s).cap = b.cap := ⟨rfl, rfl⟩

theorem bytes_facts {b : Buf} (h : Tight b) (bs : List Nat) :
    Tight (b.bytes bs) ∧ (b.bytes bs).text = b.text ++ bs.flatMap hex2 ∧ (b.bytes bs).cap = b.cap := by
  induction bs generalizing b with
  | nil => exact ⟨h, by simp [Buf.bytes], rfl⟩
  | cons x bs ih =>
    obtain ⟨h1, h2, h3⟩ := ih (tight_put h (hex2 x))
    refine ⟨h1, ?_, h3⟩
    have : (b.bytes (x :: bs)).text = ((b.put (hex2 x)).bytes bs).text := rfl
    rw [this, h2, (put_text b _).1]
    simp

theorem number_facts {b : Buf} (h : Tight b) (bs : List Nat) (hb : IsBytes bs) :
    Tight (b.number bs) ∧ (b.number bs).text = b.text ++ capitalBytes bs ∧ (b.number bs).cap = b.cap := by
  cases bs with
  | nil => exact ⟨h, by simp [Buf.number, capitalBytes], rfl⟩
  | cons x bs =>
    obtain ⟨h1, h2, h3⟩ := bytes_facts (tight_put h (hexNum x)) bs
    refine ⟨h1, ?_, h3⟩
    have : (b.number (x :: bs)).text = ((b.put (hexNum x)).bytes bs).text := rfl
    rw [this, h2, (put_text b _).1, hexNum_eq, hex2_map (fun y hy => hb y (by simp [hy]))]
    simp [capitalBytes]

theorem plane_facts {b : Buf} (h : Tight b) (x : Nat) (bs : List Nat) :
    Tight (b.plane (x :: bs)) ∧ (b.plane (x :: bs)).text = b.text ++ capitalHex (signed x) ∧ (b.plane (x :: bs)).cap = b.cap := by
  refine ⟨tight_put h _, ?_, rfl⟩
  rw [← hexNum_eq]; rfl

theorem start_tight {c : Nat} (h : 1 ≤ c) : Tight ⟨c, [], false⟩ := by
  simp only [Tight, List.length_nil]
  exact (decide_eq_false (by omega)).symm

theorem even_length {b : Nat} (h : b < 256) : (capitalHexEven b).length = 2 := by rw [← hex2_even h]; rfl

theorem evens_length {bs : List Nat} (h : IsBytes bs) : (bs.flatMap capitalHexEven).length = 2 * bs.length := by
  induction bs with
  | nil => rfl
  | cons b bs ih =>
    rw [List.flatMap_cons, List.length_append, even_length (h b (by simp)), ih (fun x hx => h x (by simp [hx])), List.length_cons]
    omega

theorem byte_digits {b : Nat} (h : b < 256) : (capitalHex b).length = if b < 16 then 1 else 2 := by
  split
  · rename_i h1; rw [capitalHex_small h1]; rfl
  · rw [capitalHex_step (by omega), capitalHex_small (by omega)]; rfl

theorem capitalBytes_length {bs : List Nat} (h : IsBytes bs) :
    (capitalBytes bs).length = match bs with | [] => 0 | b :: bs => (if b < 16 then 1 else 2) + 2 * bs.length := by
  cases bs with
  | nil => rfl
  | cons b bs =>
    simp only [capitalBytes, List.length_append]
    rw [byte_digits (h b (by simp)), evens_length (fun x hx => h x (by simp [hx]))]

theorem imgBuf_facts (bs : List Nat) (hb : IsBytes bs) :
    some (imgBuf bs).text = pictureText (1 :: bs) ∧ (imgBuf bs).over = decide (50 < (capitalBytes bs).length) := by
  obtain ⟨h1, h2, h3⟩ := number_facts (tight_put (start_tight (c := 128) (by decide)) (ascii "<img class=\"unicode_img\" src=\"http://www.unicode.org/cgi-bin/refglyph?24-")) bs hb
  have e : (imgBuf bs).text = ascii "<img class=\"unicode_img\" src=\"http://www.unicode.org/cgi-bin/refglyph?24-" ++ capitalBytes bs ++ ascii "\" />" := by
    simp only [imgBuf]
    rw [(put_text _ _).1, h2]
    rfl
  refine ⟨by rw [e]; rfl, ?_⟩
  have t : Tight (imgBuf bs) := tight_put h1 _
  have c : (imgBuf bs).cap = 128 := h3
  rw [t, c, e, Bool.eq_iff_iff]
  simp only [List.length_append, decide_eq_true_eq]
  rw [show (ascii "<img class=\"unicode_img\" src=\"http://www.unicode.org/cgi-bin/refglyph?24-").length = 73 by decide +kernel,
    show (ascii "\" />").length = 4 by decide +kernel]
  omega

theorem infoBuf_facts (bs : List Nat) (hb : IsBytes bs) : some (infoBuf bs).text = linkText (1 :: bs) ∧ (infoBuf bs).over = false := by
  obtain ⟨h1, h2, h3⟩ := bytes_facts (tight_put (start_tight (c := bs.length * 2 * 2 + 150) (by omega)) (ascii "<a href=\"http://www.fileformat.info/info/unicode/char/")) bs
  obtain ⟨k1, k2, k3⟩ := number_facts (tight_put h1 (ascii "/index.htm\"><img class=\"unicode_img\" src=\"http://www.unicode.org/cgi-bin/refglyph?24-")) bs hb
  have e : (infoBuf bs).text = ascii "<a href=\"http://www.fileformat.info/info/unicode/char/" ++ bs.flatMap capitalHexEven ++
      ascii "/index.htm\"><img class=\"unicode_img\" src=\"http://www.unicode.org/cgi-bin/refglyph?24-" ++ capitalBytes bs ++ ascii "\" /></a>" := by
    simp only [infoBuf]
    rw [(put_text _ _).1, k2, (put_text _ _).1, h2, hex2_map hb]
    rfl
  refine ⟨by rw [e]; rfl, ?_⟩
  have t : Tight (infoBuf bs) := tight_put k1 _
  have c : (infoBuf bs).cap = bs.length * 2 * 2 + 150 := by
    have : (infoBuf bs).cap = _ := k3
    rw [this]; exact h3
  rw [t, c, e]
  refine decide_eq_false ?_
  simp only [List.length_append]
  rw [show (ascii "<a href=\"http://www.fileformat.info/info/unicode/char/").length = 54 by decide +kernel,
    show (ascii "/index.htm\"><img class=\"unicode_img\" src=\"http://www.unicode.org/cgi-bin/refglyph?24-").length = 85 by decide +kernel,
    show (ascii "\" /></a>").length = 8 by decide +kernel, evens_length hb, capitalBytes_length hb]
  cases bs with
  | nil => simp
  | cons b bs =>
    simp only [List.length_cons]
    split <;> omega

theorem cnsBuf_facts (p : Nat) (bs : List Nat) (hb : IsBytes bs) :
    (cnsBuf (p :: bs)).text = cnsPicture (capitalHex (signed p)) (bs.flatMap capitalHexEven) ∧
    (cnsBuf (p :: bs)).over = decide (9 < 2 * (capitalHex (signed p)).length) := by
  obtain ⟨h1, h2, h3⟩ := plane_facts (tight_put (start_tight (c := (p :: bs).length * 4 + 150) (by omega))
    (ascii "<a href=\"http://www.cns11643.gov.tw/AIDB/query_general_view.do?page=")) p bs
  obtain ⟨i1, i2, i3⟩ := bytes_facts (tight_put h1 (ascii "&code=")) bs
  obtain ⟨j1, j2, j3⟩ := plane_facts (tight_put i1 (ascii "\"><img src=\"http://www.cns11643.gov.tw/AIDB/png.do?page=")) p bs
  obtain ⟨k1, k2, k3⟩ := bytes_facts (tight_put j1 (ascii "&code=")) bs
  have e : (cnsBuf (p :: bs)).text = cnsPicture (capitalHex (signed p)) (bs.flatMap capitalHexEven) := by
    simp only [cnsBuf, List.drop_succ_cons, List.drop_zero]
    rw [(put_text _ _).1, k2, (put_text _ _).1, j2, (put_text _ _).1, i2, (put_text _ _).1, h2, hex2_map hb]
    simp only [cnsPicture, (put_text _ _).1, List.nil_append]
  refine ⟨e, ?_⟩
  have t : Tight (cnsBuf (p :: bs)) := tight_put k1 _
  have c : (cnsBuf (p :: bs)).cap = (p :: bs).length * 4 + 150 := by
    have : (cnsBuf (p :: bs)).cap = _ := k3
    rw [this, (put_text _ _).2, j3, (put_text _ _).2, i3, (put_text _ _).2, h3]; rfl
  rw [t, c, e, Bool.eq_iff_iff]
  simp only [cnsPicture, List.length_append, decide_eq_true_eq, List.length_cons]
  rw [show (ascii "<a href=\"http://www.cns11643.gov.tw/AIDB/query_general_view.do?page=").length = 68 by decide +kernel,
    show (ascii "&code=").length = 6 by decide +kernel,
    show (ascii "\"><img src=\"http://www.cns11643.gov.tw/AIDB/png.do?page=").length = 56 by decide +kernel,
    show (ascii "\" /></a>").length = 8 by decide +kernel, evens_length hb]
  omega

/-! ### The phases -/

/-- Codecs that write one text for a datum or refuse it, and remember whether a buffer was overrun. -/
theorem run_texts {h : Handler Bool} {f : Datum → Option Datum} {g : Datum → Bool} (hd : ∀ d, IsBytes d → ∀ t, h.act t d =
    (f d).map fun x => (t || g d, [x], false)) (t : Bool) (ds : List Datum) (hb : AllBytes ds) :
    h.run false false t ds = ⟨ds.filterMap f, ds.countP fun d => (f d).isNone, t || ds.any fun d => (f d).isSome && g d⟩ := by
  induction ds generalizing t with
  | nil => simp [Handler.run]
  | cons d ds ih =>
    have hb' : AllBytes ds := fun x hx => hb x (by simp [hx])
    cases hf : f d with
    | none => simp [Handler.run, hd d (hb d (by simp)), hf, ih _ hb', List.countP_cons, Out.after]
    | some x =>
      simp only [Handler.run, hd d (hb d (by simp)), hf, Option.map_some, ih _ hb', Out.after, List.filterMap_cons, List.countP_cons,
        List.any_cons, Option.isSome_some, Bool.true_and, Option.isNone_some, Bool.or_assoc]
      simp

theorem capitalHex_bytes (n : Nat) : IsBytes (capitalHex n) := by
  have small : ∀ n, n < 16 → hexDigit n < 256 := by decide
  induction n using Nat.strongRecOn with
  | ind n ih =>
    by_cases h : n < 16
    · rw [capitalHex_small h]
      intro x hx
      simp only [List.mem_cons, List.not_mem_nil, or_false] at hx
      exact hx ▸ small n h
    · rw [capitalHex_step (by omega)]
      intro x hx
      rcases List.mem_append.1 hx with hx | hx
      · exact ih _ (by omega) x hx
      · simp only [List.mem_cons, List.not_mem_nil, or_false] at hx
        exact hx ▸ small _ (Nat.mod_lt _ (by decide))

theorem even_bytes (n : Nat) : IsBytes (capitalHexEven n) := by
  rw [capital_even]
  split
  · intro x hx
    rcases List.mem_cons.1 hx with rfl | hx
    · decide
    · exact capitalHex_bytes n x hx
  · exact capitalHex_bytes n

theorem isBytes_append {a b : List Nat} (ha : IsBytes a) (hb : IsBytes b) : IsBytes (a ++ b) := by
  intro x hx
  rcases List.mem_append.1 hx with hx | hx
  · exact ha x hx
  · exact hb x hx

theorem evens_bytes (bs : List Nat) : IsBytes (bs.flatMap capitalHexEven) := by
  intro x hx
  obtain ⟨b, _, hb⟩ := List.mem_flatMap.1 hx
  exact even_bytes b x hb

theorem capitalBytes_bytes (bs : List Nat) : IsBytes (capitalBytes bs) := by
  cases bs with
  | nil => intro x hx; cases hx
  | cons b bs => exact isBytes_append (capitalHex_bytes b) (evens_bytes bs)

theorem pictureText_bytes {d x : Datum} (h : pictureText d = some x) : IsBytes x := by
  unfold pictureText at h
  split at h
  · cases h
    exact isBytes_append (isBytes_append (show ∀ c ∈ _, c < 256 by decide +kernel) (capitalBytes_bytes _)) (show ∀ c ∈ _, c < 256 by decide +kernel)
  · cases h

theorem cnsPicture_bytes {a b : List Nat} (ha : IsBytes a) (hb : IsBytes b) : IsBytes (cnsPicture a b) := by
  unfold cnsPicture
  exact isBytes_append (isBytes_append (isBytes_append (isBytes_append (isBytes_append (isBytes_append (isBytes_append (isBytes_append
    (show ∀ c ∈ _, c < 256 by decide +kernel) ha) (show ∀ c ∈ _, c < 256 by decide +kernel)) hb) (show ∀ c ∈ _, c < 256 by decide +kernel)) ha)
    (show ∀ c ∈ _, c < 256 by decide +kernel)) hb) (show ∀ c ∈ _, c < 256 by decide +kernel)

theorem sound_texts {h : Handler Bool} {f : Datum → Option Datum} {g : Datum → Bool} (hd : ∀ d, IsBytes d → ∀ t, h.act t d =
    (f d).map fun x => (t || g d, [x], false)) (hf : ∀ d, IsBytes d → ∀ x, f d = some x → IsBytes x) (hfl : ∀ t, h.flush t = (t, [])) :
    Sound h (fun _ => True) where
  act := by
    intro t d _ _ hb t' out b h'
    rw [hd d hb] at h'
    cases hx : f d with
    | none => simp [hx] at h'
    | some x =>
      simp only [hx, Option.map_some, Option.some.injEq, Prod.mk.injEq] at h'
      obtain ⟨_, rfl, rfl⟩ := h'
      refine ⟨trivial, ?_, by simp⟩
      intro y hy
      simp only [List.mem_cons, List.not_mem_nil, or_false] at hy
      exact hy ▸ hf d hb x hx
  flush := by intro t _; rw [hfl]; exact ⟨trivial, by simp⟩

/-- Is the datum a picture too long for the buffer? -/
def tooLong : Datum → Bool
  | 1 :: bs => decide (26 ≤ bs.length)
  | _ => false

theorem img_act (d : Datum) (hb : IsBytes d) (t : Bool) : img.act t d = (pictureText d).map fun x => (t || tooLong d, [x], false) := by
  simp only [img]
  split
  · rename_i bs
    have hb' : IsBytes bs := fun x hx => hb x (by simp [hx])
    obtain ⟨h1, h2⟩ := imgBuf_facts bs hb'
    have e : tooLong (1 :: bs) = (imgBuf bs).over := by
      rw [h2, Bool.eq_iff_iff]
      simp only [tooLong, decide_eq_true_eq]
      rw [capitalBytes_length hb']
      cases bs with
      | nil => simp
      | cons b bs =>
        simp only [List.length_cons]
        split <;> omega
    rw [e, ← h1]
    rfl
  · rename_i h
    unfold pictureText
    split
    · rename_i bs; exact absurd rfl (h bs)
    · rfl

/-- The text `ASCII-HTML-INFO` writes. -/
def infoText : Datum → Option Datum
  | 1 :: bs => some (infoBuf bs).text
  | 2 :: bs => some (cnsBuf bs).text
  | _ => none

/-- Is the datum a character of CNS 11643 on a plane from 80 on? -/
def farPlane : Datum → Bool
  | 2 :: p :: _ => decide (128 ≤ p)
  | _ => false

theorem signed_digits {p : Nat} (hp : p < 256) : (capitalHex (signed p)).length = if p < 16 then 1 else if p < 128 then 2 else 8 := by
  revert p
  decide +kernel

theorem cns_text (bs : List Nat) (hb : IsBytes bs) : (cnsBuf bs).over = farPlane (2 :: bs) ∧
    (farPlane (2 :: bs) = false → some (cnsBuf bs).text = linkText (2 :: bs)) ∧ IsBytes (cnsBuf bs).text := by
  cases bs with
  | nil => exact ⟨by decide +kernel, fun _ => by decide +kernel, show ∀ c ∈ _, c < 256 by decide +kernel⟩
  | cons p bs =>
    have hp := hb p (by simp)
    obtain ⟨h1, h2⟩ := cnsBuf_facts p bs (fun x hx => hb x (by simp [hx]))
    refine ⟨?_, ?_, h1 ▸ cnsPicture_bytes (capitalHex_bytes _) (evens_bytes _)⟩
    · rw [h2, Bool.eq_iff_iff]
      simp only [farPlane, decide_eq_true_eq]
      rw [signed_digits hp]
      split
      · omega
      · split <;> omega
    · intro hf
      simp only [farPlane, decide_eq_false_iff_not] at hf
      rw [h1, signed, if_pos (by omega)]
      simp [linkText, capitalBytes]

theorem info_act (d : Datum) (hb : IsBytes d) (t : Bool) : info.act t d = (infoText d).map fun x => (t || farPlane d, [x], false) := by
  simp only [info]
  split
  · rename_i bs
    rw [(infoBuf_facts bs (fun x hx => hb x (by simp [hx]))).2]
    rfl
  · rename_i bs
    rw [(cns_text bs (fun x hx => hb x (by simp [hx]))).1]
    rfl
  · rename_i h1 h2
    unfold infoText
    split
    · rename_i bs; exact absurd rfl (h1 bs)
    · rename_i bs; exact absurd rfl (h2 bs)
    · rfl

theorem linkText_eq (d : Datum) (hb : IsBytes d) (h : farPlane d = false) : infoText d = linkText d := by
  unfold infoText
  split
  · rename_i bs; exact (infoBuf_facts bs (fun x hx => hb x (by simp [hx]))).1
  · rename_i bs; exact (cns_text bs (fun x hx => hb x (by simp [hx]))).2.1 h
  · rename_i h1 h2
    unfold linkText
    split
    · rename_i bs; exact absurd rfl (h1 bs)
    · rename_i bs; exact absurd rfl (h2 bs)
    · rfl

theorem infoText_bytes (d : Datum) (hb : IsBytes d) (x : Datum) (h : infoText d = some x) : IsBytes x := by
  unfold infoText at h
  split at h
  · rename_i bs
    cases h
    have e := (infoBuf_facts bs (fun x hx => hb x (by simp [hx]))).1
    simp only [linkText, Option.some.injEq] at e
    rw [e]
    exact isBytes_append (isBytes_append (isBytes_append (isBytes_append (show ∀ c ∈ _, c < 256 by decide +kernel) (evens_bytes _))
      (show ∀ c ∈ _, c < 256 by decide +kernel)) (capitalBytes_bytes _)) (show ∀ c ∈ _, c < 256 by decide +kernel)
  · rename_i bs
    cases h
    exact (cns_text bs (fun x hx => hb x (by simp [hx]))).2.2
  · cases h

theorem texts_congr {f g : Datum → Option Datum} {ds : List Datum} (h : ∀ d ∈ ds, f d = g d) : ds.filterMap f = ds.filterMap g := by
  induction ds with
  | nil => rfl
  | cons d ds ih => rw [List.filterMap_cons, List.filterMap_cons, h d (by simp), ih fun x hx => h x (by simp [hx])]

theorem nonEmpty_all {ds : List Datum} (h : AllBytes ds) : AllBytes (nonEmpty ds) := fun d hd => h d ((List.mem_filter.1 hd).1)

section
variable {st : Nat → Static π} {ip : Nat → Nat → π → π} {ins : Ins π} {pre post : List (Proc π)} {s : Static π}

/-- C87.  The output codec `ASCII-HTML-UNICODE-IMG` behind any conversion: every datum beginning with 01 gives the text of its picture, every
other one an output error.  Memory outside the buffer is written exactly when a datum has 26 or more bytes behind the 01. -/
theorem C87_img (h : Placed st ip ins pre s post) {e : Lens π Bool} (hs : Only s .to_ (plain e img)) (hi : ∀ x, ip (pre.length + 1) 0 x = x) :
    Converts st ip ins (pre ++ {
      out := fun ds => (nonEmpty ds).filterMap pictureText
      outErrors := fun ds => (nonEmpty ds).countP fun d => (pictureText d).isNone
      fin := fun ds q => e.get (q 0) = (e.get ((ins.ph (pre.length + 1)).priv 0) ||
        (nonEmpty ds).any fun d => d.head? == some 1 && decide (27 ≤ d.length)) } :: post) := by
  refine single_converts h (single_plain hs (by simp) (fun _ => rfl)) (sound_texts img_act (fun _ _ _ hx => pictureText_bytes hx) (fun _ => rfl))
    (initPriv_get (placed_le h) (by omega) e id (fun x => by rw [hi]; rfl)) trivial rfl ?_
  intro ds hds _
  rw [passes_to hs, run_texts img_act _ _ (nonEmpty_all hds)]
  refine ⟨rfl, rfl, rfl, ?_⟩
  intro q hq
  simp only [hq, id]
  congr 2
  funext d
  rw [Bool.eq_iff_iff]
  unfold pictureText tooLong
  split
  · simp
  · rename_i h1
    cases d with
    | nil => simp
    | cons a d =>
      have : a ≠ 1 := fun e => h1 d (by rw [e])
      simp [this]

/-- C87.  The output codec `ASCII-HTML-INFO` behind any conversion whose data have no CNS 11643 plane from 80 on: every datum beginning with 01
or 02 gives the text of its linked picture, every other one an output error, and the buffers are large enough. -/
theorem C87_info (h : Placed st ip ins pre s post) {e : Lens π Bool} (hs : Only s .to_ (plain e info)) (hi : ∀ x, ip (pre.length + 1) 0 x = x) :
    Converts st ip ins (pre ++ {
      out := fun ds => (nonEmpty ds).filterMap linkText
      outErrors := fun ds => (nonEmpty ds).countP fun d => (linkText d).isNone
      ok := fun ds => ∀ d ∈ ds, ∀ p r, d = 2 :: p :: r → p < 128
      fin := fun _ q => e.get (q 0) = e.get ((ins.ph (pre.length + 1)).priv 0) } :: post) := by
  refine single_converts h (single_plain hs (by simp) (fun _ => rfl)) (sound_texts info_act infoText_bytes (fun _ => rfl))
    (initPriv_get (placed_le h) (by omega) e id (fun x => by rw [hi]; rfl)) trivial rfl ?_
  intro ds hds hok
  have far : ∀ d ∈ nonEmpty ds, farPlane d = false := by
    intro d hd
    unfold farPlane
    split
    · rename_i p r
      exact decide_eq_false (by have := hok _ ((List.mem_filter.1 hd).1) p r rfl; omega)
    · rfl
  have eq : ∀ d ∈ nonEmpty ds, infoText d = linkText d := fun d hd => linkText_eq d (nonEmpty_all hds d hd) (far d hd)
  rw [passes_to hs, run_texts info_act _ _ (nonEmpty_all hds)]
  refine ⟨rfl, (texts_congr eq).symm, ?_, ?_⟩
  · simp only [Bool.false_eq_true, if_false]
    exact List.countP_congr fun d hd => by rw [eq d hd]
  · intro q hq
    simp only [hq, id]
    rw [List.any_eq_false.2 (fun d hd => by simp [far d hd]), Bool.or_false]

/-- C87 fails for `ASCII-HTML-INFO` on data beginning with 02: a byte from 80 on behind it is printed with its sign, and the buffer is overrun by
every such datum. -/
theorem C87_info_overrun (h : Placed st ip ins pre s post) {e : Lens π Bool} (hs : Only s .to_ (plain e info)) (hi : ∀ x, ip (pre.length + 1) 0 x = x) :
    ∃ text, Converts st ip ins (pre ++ {
      out := fun ds => (nonEmpty ds).filterMap text
      outErrors := fun ds => (nonEmpty ds).countP fun d => (text d).isNone
      fin := fun ds q => (e.get (q 0) = true ↔ e.get ((ins.ph (pre.length + 1)).priv 0) = true ∨ ∃ p r, 128 ≤ p ∧ 2 :: p :: r ∈ ds) } :: post) := by
  refine ⟨infoText, single_converts h (single_plain hs (by simp) (fun _ => rfl)) (sound_texts info_act infoText_bytes (fun _ => rfl))
    (initPriv_get (placed_le h) (by omega) e id (fun x => by rw [hi]; rfl)) trivial rfl ?_⟩
  intro ds hds _
  rw [passes_to hs, run_texts info_act _ _ (nonEmpty_all hds)]
  refine ⟨rfl, rfl, rfl, ?_⟩
  intro q hq
  simp only [hq, id, Bool.or_eq_true, List.any_eq_true, Bool.and_eq_true]
  constructor
  · rintro (h | ⟨d, hd, _, hf⟩)
    · exact .inl h
    · have hd' := (List.mem_filter.1 hd).1
      match d, hf, hd' with
      | 2 :: p :: r, hf, hd' => exact .inr ⟨p, r, of_decide_eq_true hf, hd'⟩
  · rintro (h | ⟨p, r, hp, hd⟩)
    · exact .inl h
    · exact .inr ⟨_, List.mem_filter.2 ⟨hd, rfl⟩, rfl, decide_eq_true hp⟩

end

/-- C87.  The texts of a character name it: its digits are the hexadecimal numeral of its code point. -/
theorem C87_character (cp : Nat) : pictureText (uniDatum cp) = some (picture cp) ∧ linkText (uniDatum cp) = some (linkedPicture cp) := by
  constructor
  · simp only [pictureText, uniDatum, capitalBytes_number, picture]
  · simp only [linkText, uniDatum, capitalBytes_number, even_number, linkedPicture, picture]
    rw [show ascii "/index.htm\"><img class=\"unicode_img\" src=\"http://www.unicode.org/cgi-bin/refglyph?24-" = ascii "/index.htm\">" ++
      ascii "<img class=\"unicode_img\" src=\"http://www.unicode.org/cgi-bin/refglyph?24-" by decide +kernel,
      show ascii "\" /></a>" = ascii "\" />" ++ ascii "</a>" by decide +kernel]
    simp only [List.append_assoc]

/-! ### Pages -/

theorem placed_behind {st : Nat → Static π} {ip : Nat → Nat → π → π} {ins : Ins π} {D : Proc π} (hn : ins.phasen = 2)
    (hD : Realises (st 1) (fun q => q = initPriv st ip ins 1) D) : Placed st ip ins [D] (st 2) [] where
  before := by
    intro k h
    obtain rfl : k = 0 := by simp at h; omega
    exact hD
  here := rfl
  behind := by intro k h; simp at h
  alt := by intro k h; simp at h
  altPost := by intro k h; simp at h
  phasen := hn

/-- A text read by the first phase, then a second phase. -/
theorem text_into {st : Nat → Static π} {ip : Nat → Nat → π → π} {ins : Ins π} {T cps : List Nat} (hn : ins.phasen = 2)
    (ha : ReadsAs (st 1) (initPriv st ip ins 1) T cps) {P : Proc π} (hP : ∀ D, Placed st ip ins [D] (st 2) [] → Converts st ip ins ([D] ++ P :: []))
    (hok : P.ok (textData cps)) (hin : P.inErrors (textData cps) = 0)
    (as : List Arg) (l : Arg) (h1 : ∀ x ∈ as, x.flush = false) (h2 : l.flush = true) (h3 : ∀ x ∈ as ++ [l], x.mode ≠ .null)
    (h4 : ((as ++ [l]).filterMap (fun x => x.input)).flatten = T) :
    ∃ ds ins', Session st (ins.init st ip) (as ++ [l]) ds ins' ∧
      (ds.map (fun d => d.bytes)).flatten ++ ins'.pending.flatten = (P.out (textData cps)).flatten ∧
      ins'.ierr = ins.ierr ∧ ins'.oerr = ins.oerr + P.outErrors (textData cps) ∧ P.fin (textData cps) (ins'.ph 2).priv := by
  obtain ⟨hT, D, hD1, hD2⟩ := ha
  obtain ⟨f1, f2, f3, f4⟩ := hD2 _ h4
  have hb : ∀ x ∈ as ++ [l], ∀ c ∈ x.input, IsBytes c := by
    intro x hx c hc y hy
    refine hT y ?_
    rw [← h4]
    exact List.mem_flatten.2 ⟨c, List.mem_filterMap.2 ⟨x, hx, hc⟩, hy⟩
  obtain ⟨ds, ins', k1, k2, _, k4, k5, k6⟩ := hP D (placed_behind hn hD1) as l h1 h2 h3 hb _ rfl ⟨.inl f2, f4, by rw [f1]; exact ⟨hin, hok, trivial⟩⟩
  refine ⟨ds, ins', k1, ?_, ?_, ?_, ?_⟩
  · rw [k2]; simp only [List.cons_append, List.nil_append, runProcs, f1]
  · rw [k4]; simp only [List.cons_append, List.nil_append, runIn, f1, f2, hin, Nat.add_zero, Nat.zero_add]
  · rw [k5]; simp only [List.cons_append, List.nil_append, runOut, f1, f3, Nat.zero_add, Nat.add_zero]
  · have := k6 1 (by simp)
    simpa only [List.cons_append, List.nil_append, List.take_succ_cons, List.take_zero, runProcs, f1, List.getElem_cons_succ, List.getElem_cons_zero] using this

theorem html_nonEmpty (cps : List Nat) : nonEmpty (textData cps) = textData cps := by
  induction cps with
  | nil => rfl
  | cons c cps ih => simpa [nonEmpty, textData, uniDatum] using ih

theorem be_length : ∀ k n, n < 256 ^ (k + 1) → (beBytes n).length ≤ k + 1 := by
  intro k
  induction k with
  | zero => intro n h; unfold beBytes; rw [if_pos (by omega)]; simp
  | succ k ih =>
    intro n h
    unfold beBytes
    split
    · simp
    · have := ih (n / 256) (Nat.div_lt_of_lt_mul (by rw [Nat.pow_succ] at h; omega))
      simp; omega

theorem text_texts {f : Datum → Option Datum} {g : Nat → List Nat} (hf : ∀ cp, f (uniDatum cp) = some (g cp)) (cps : List Nat) :
    ((textData cps).filterMap f).flatten = cps.flatMap g ∧ (textData cps).countP (fun d => (f d).isNone) = 0 := by
  induction cps with
  | nil => exact ⟨rfl, rfl⟩
  | cons c cps ih => 
    have e : textData (c :: cps) = uniDatum c :: textData cps := rfl
    rw [e, List.filterMap_cons, hf, List.countP_cons, hf]
    exact ⟨by simp [ih.1], by simp [ih.2]⟩

/-- C87.  A text in any encoding the first phase reads, given in any number of chunks cut anywhere: `ASCII-HTML-UNICODE-IMG` turns it into the
pictures of its characters in order, without errors and without writing outside its buffer. -/
theorem C87_page {st : Nat → Static π} {ip : Nat → Nat → π → π} {ins : Ins π} {T cps : List Nat} {e : Lens π Bool} (hn : ins.phasen = 2)
    (ha : ReadsAs (st 1) (initPriv st ip ins 1) T cps) (hs : Only (st 2) .to_ (plain e img)) (hi : ∀ x, ip 2 0 x = x) (hc : ∀ cp ∈ cps, Scalar cp)
    (as : List Arg) (l : Arg) (h1 : ∀ x ∈ as, x.flush = false) (h2 : l.flush = true) (h3 : ∀ x ∈ as ++ [l], x.mode ≠ .null)
    (h4 : ((as ++ [l]).filterMap (fun x => x.input)).flatten = T) :
    ∃ ds ins', Session st (ins.init st ip) (as ++ [l]) ds ins' ∧
      (ds.map (fun d => d.bytes)).flatten ++ ins'.pending.flatten = cps.flatMap picture ∧
      ins'.ierr = ins.ierr ∧ ins'.oerr = ins.oerr ∧ e.get ((ins'.ph 2).priv 0) = e.get ((ins.ph 2).priv 0) := by
  obtain ⟨ds, ins', k1, k2, k3, k4, k5⟩ := text_into (P := {
      out := fun ds => (nonEmpty ds).filterMap pictureText
      outErrors := fun ds => (nonEmpty ds).countP fun d => (pictureText d).isNone
      fin := fun ds q => e.get (q 0) = (e.get ((ins.ph 2).priv 0) ||
        (nonEmpty ds).any fun d => d.head? == some 1 && decide (27 ≤ d.length)) }) hn ha (fun D hp => C87_img hp hs hi) trivial rfl as l h1 h2 h3 h4
  obtain ⟨t1, t2⟩ := text_texts (fun cp => (C87_character cp).1) cps
  simp only [html_nonEmpty, t1, t2] at k2 k4 k5
  refine ⟨ds, ins', k1, k2, k3, k4, k5.trans ?_⟩
  rw [List.any_eq_false.2, Bool.or_false]
  intro d hd
  obtain ⟨cp, hcp, rfl⟩ := List.mem_map.1 hd
  have := be_length 2 cp (by have := (hc cp hcp).2.1; omega)
  simp [uniDatum]; omega

/-- C87.  The same for `ASCII-HTML-INFO`. -/
theorem C87_links {st : Nat → Static π} {ip : Nat → Nat → π → π} {ins : Ins π} {T cps : List Nat} {e : Lens π Bool} (hn : ins.phasen = 2)
    (ha : ReadsAs (st 1) (initPriv st ip ins 1) T cps) (hs : Only (st 2) .to_ (plain e info)) (hi : ∀ x, ip 2 0 x = x)
    (as : List Arg) (l : Arg) (h1 : ∀ x ∈ as, x.flush = false) (h2 : l.flush = true) (h3 : ∀ x ∈ as ++ [l], x.mode ≠ .null)
    (h4 : ((as ++ [l]).filterMap (fun x => x.input)).flatten = T) :
    ∃ ds ins', Session st (ins.init st ip) (as ++ [l]) ds ins' ∧
      (ds.map (fun d => d.bytes)).flatten ++ ins'.pending.flatten = cps.flatMap linkedPicture ∧
      ins'.ierr = ins.ierr ∧ ins'.oerr = ins.oerr ∧ e.get ((ins'.ph 2).priv 0) = e.get ((ins.ph 2).priv 0) := by
  obtain ⟨ds, ins', k1, k2, k3, k4, k5⟩ := text_into (P := {
      out := fun ds => (nonEmpty ds).filterMap linkText
      outErrors := fun ds => (nonEmpty ds).countP fun d => (linkText d).isNone
      ok := fun ds => ∀ d ∈ ds, ∀ p r, d = 2 :: p :: r → p < 128
      fin := fun _ q => e.get (q 0) = e.get ((ins.ph 2).priv 0) }) hn ha (fun D hp => C87_info hp hs hi)
    (by intro d hd p r e
        obtain ⟨cp, _, rfl⟩ := List.mem_map.1 hd
        simp [uniDatum] at e) rfl as l h1 h2 h3 h4
  obtain ⟨t1, t2⟩ := text_texts (fun cp => (C87_character cp).2) cps
  simp only [html_nonEmpty, t1, t2] at k2 k4 k5
  exact ⟨ds, ins', k1, k2, k3, k4, k5⟩

/-! ### Cases -/

-- U+1F600 and the euro sign.
example : picture 0x1F600 = ascii "<img class=\"unicode_img\" src=\"http://www.unicode.org/cgi-bin/refglyph?24-1F600\" />" := by decide +kernel
example : linkedPicture 0xE01 = ascii "<a href=\"http://www.fileformat.info/info/unicode/char/0E01/index.htm\"><img class=\"unicode_img\" src=\"http://www.unicode.org/cgi-bin/refglyph?24-E01\" /></a>" := by
  decide +kernel

/-- A conversion of one phase: a character, and a byte that is refused. -/
example : ∃ ds ins', Session (fun _ => onePhase .to_ (plain (Lens.self Bool) img))
      ((solo false).init (fun _ => onePhase .to_ (plain (Lens.self Bool) img)) (fun _ _ x => x)) (twoCalls [1, 0x20, 0xAC] [3, 0x42]) ds ins' ∧
    nonEmpty ins'.pending = [picture 0x20AC] ∧ (ins'.ph 1).priv 0 = false ∧ ins'.oerr = 1 := by
  obtain ⟨ds, ins', a, b, c, d⟩ := two_calls (C87_img (placed_solo _ (fun _ _ x => x) false) (only_one _ _) (fun _ => rfl))
      (x := [1, 0x20, 0xAC]) (y := [3, 0x42]) (by decide) (by decide) ⟨rfl, trivial⟩
  exact ⟨ds, ins', a, b.trans (by decide +kernel), c.trans (by decide +kernel), d⟩

/-- C87 fails for `ASCII-HTML-UNICODE-IMG` on long data: the 128 byte buffer on the stack is overrun. -/
theorem C87_img_violated :
    ∃ ds ins', Session (fun _ => onePhase .to_ (plain (Lens.self Bool) img))
      ((solo false).init (fun _ => onePhase .to_ (plain (Lens.self Bool) img)) (fun _ _ x => x)) (twoCalls (1 :: List.replicate 26 0) [3, 0x42]) ds ins' ∧
    (ins'.ph 1).priv 0 = true := by
  obtain ⟨ds, ins', a, b, c, d⟩ := two_calls (C87_img (placed_solo _ (fun _ _ x => x) false) (only_one _ _) (fun _ => rfl))
      (x := 1 :: List.replicate 26 0) (y := [3, 0x42]) (by decide) (by decide) ⟨rfl, trivial⟩
  exact ⟨ds, ins', a, c.trans (by decide +kernel)⟩

/-- `ASCII-HTML-INFO` on a character of CNS 11643, plane 3. -/
example : ∃ ds ins', Session (fun _ => onePhase .to_ (plain (Lens.self Bool) info))
      ((solo false).init (fun _ => onePhase .to_ (plain (Lens.self Bool) info)) (fun _ _ x => x)) (twoCalls [2, 3, 0x21, 0x2A] [1, 0x41]) ds ins' ∧
    nonEmpty ins'.pending = [cnsPicture (ascii "3") (ascii "212A"), linkedPicture 0x41] ∧ (ins'.ph 1).priv 0 = false ∧ ins'.oerr = 0 := by
  obtain ⟨ds, ins', a, b, c, d⟩ := two_calls (C87_info (placed_solo _ (fun _ _ x => x) false) (only_one _ _) (fun _ => rfl))
      (x := [2, 3, 0x21, 0x2A]) (y := [1, 0x41]) (by decide) (by decide) ⟨rfl, by
        intro d hd p r e
        simp only [List.mem_cons, List.not_mem_nil, or_false] at hd
        rcases hd with rfl | rfl <;> simp at e
        omega⟩
  exact ⟨ds, ins', a, b.trans (by decide +kernel), c, d⟩

/-- C87 fails for `ASCII-HTML-INFO`: a datum 02 80 overruns the heap buffer. -/
theorem C87_info_violated :
    ∃ ds ins', Session (fun _ => onePhase .to_ (plain (Lens.self Bool) info))
      ((solo false).init (fun _ => onePhase .to_ (plain (Lens.self Bool) info)) (fun _ _ x => x)) (twoCalls [2, 0x80, 0x21, 0x21] [1, 0x41]) ds ins' ∧
    (ins'.ph 1).priv 0 = true := by
  obtain ⟨text, h⟩ := C87_info_overrun (placed_solo _ (fun _ _ x => x) false) (only_one _ (plain (Lens.self Bool) info)) (fun _ => rfl)
  obtain ⟨ds, ins', a, b, c, d⟩ := two_calls h (x := [2, 0x80, 0x21, 0x21]) (y := [1, 0x41]) (by decide) (by decide) ⟨rfl, trivial⟩
  exact ⟨ds, ins', a, c.2 (.inr ⟨0x80, _, by decide, by simp; rfl⟩)⟩

/-- Private data of a decoder and of an HTML codec. -/
def readLens : Lens (Utf8.Priv × Bool) Utf8.Priv := ⟨Prod.fst, fun t x => (t, x.2), fun _ _ => rfl, fun _ => rfl⟩
def htmlLens : Lens (Utf8.Priv × Bool) Bool := ⟨Prod.snd, fun t x => (x.1, t), fun _ _ => rfl, fun _ => rfl⟩

/-- The conversion `UTF-8:ASCII-HTML-UNICODE-IMG` (or `…-INFO`). -/
def htmlSt (c : Codec (Utf8.Priv × Bool)) (k : Nat) : Static (Utf8.Priv × Bool) :=
  if k = 1 then ⟨.from_, fun j => if j = 0 then trieCodec Ascii.fromRules else anyByte ((Utf8.machine {}).on readLens).conv, 1⟩
  else ⟨.to_, fun _ => c, 0⟩

def htmlIns : Ins (Utf8.Priv × Bool) := { ph := fun _ => { priv := fun _ => (.zero, false) }, phasen := 2 }

theorem html_source (c : Codec (Utf8.Priv × Bool)) (p : Nat → Utf8.Priv × Bool) (hp : (p 1).1 = .zero) : Source.utf8.Is (htmlSt c 1) p := by
  refine .utf8 readLens ⟨rfl, rfl, ?_, ⟨_, rfl⟩⟩ hp
  refine represents_trie _ ?_
  intro r hr
  obtain ⟨c, _, _, rfl⟩ := fromAscii_mem hr
  simp

/-- "A€" in UTF-8, cut inside the euro sign, as pictures. -/
example : ∃ ds ins', Session (htmlSt (plain htmlLens img)) (htmlIns.init (htmlSt (plain htmlLens img)) (fun _ _ x => x))
      ([⟨some [0x41, 0xE2], false, .file⟩] ++ [⟨some [0x82, 0xAC], true, .file⟩]) ds ins' ∧
    (ds.map (fun d => d.bytes)).flatten ++ ins'.pending.flatten = picture 0x41 ++ picture 0x20AC ∧ ((ins'.ph 2).priv 0).2 = false := by
  obtain ⟨ds, ins', k1, k2, _, _, k5⟩ := C87_page (st := htmlSt (plain htmlLens img)) (ip := fun _ _ x => x) (ins := htmlIns) (e := htmlLens) rfl
    (source_readsAs (html_source _ _ rfl) (cps := [0x41, 0x20AC]) (by unfold Source.Has Scalar; decide)) ⟨rfl, rfl, rfl⟩ (fun _ => rfl)
    (by unfold Scalar; decide) [⟨some [0x41, 0xE2], false, .file⟩] ⟨some [0x82, 0xAC], true, .file⟩ (by decide) rfl (by decide) (by decide)
  exact ⟨ds, ins', k1, k2.trans (by simp), k5⟩

/-- The same with links. -/
example : ∃ ds ins', Session (htmlSt (plain htmlLens info)) (htmlIns.init (htmlSt (plain htmlLens info)) (fun _ _ x => x))
      ([⟨some [0x41, 0xE2], false, .file⟩] ++ [⟨some [0x82, 0xAC], true, .file⟩]) ds ins' ∧
    (ds.map (fun d => d.bytes)).flatten ++ ins'.pending.flatten = linkedPicture 0x41 ++ linkedPicture 0x20AC ∧ ((ins'.ph 2).priv 0).2 = false := by
  obtain ⟨ds, ins', k1, k2, _, _, k5⟩ := C87_links (st := htmlSt (plain htmlLens info)) (ip := fun _ _ x => x) (ins := htmlIns) (e := htmlLens) rfl
    (source_readsAs (html_source _ _ rfl) (cps := [0x41, 0x20AC]) (by unfold Source.Has Scalar; decide)) ⟨rfl, rfl, rfl⟩ (fun _ => rfl)
    [⟨some [0x41, 0xE2], false, .file⟩] ⟨some [0x82, 0xAC], true, .file⟩ (by decide) rfl (by decide) (by decide)
  exact ⟨ds, ins', k1, k2.trans (by simp), k5⟩

end Verif.Props
