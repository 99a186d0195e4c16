/-
C strings as used by the library code: the list of characters before the terminating NUL.
A byte `b` is the character `Char.ofNat b` (bytes 128..255 as U+0080..U+00FF).
-/
namespace Verif

/-- A NUL-terminated C string. -/
abbrev Str := List Char

/-- One character of `strtoupper`: `if(*c>='a' && *c<='z') *c=*c-'a'+'A'`, /repo/src/bsdconv.h:363-370 -/
def upperC (c : Char) : Char :=
  if 'a'.toNat ≤ c.toNat ∧ c.toNat ≤ 'z'.toNat then Char.ofNat (c.toNat - 'a'.toNat + 'A'.toNat) else c

/-- `strtoupper`, /repo/src/bsdconv.h:363-370 -/
def strtoupper (s : Str) : Str := s.map upperC

/-- One call of libc `strsep(&cur, "d")` on a non-NULL `cur`: the token before the first delimiter and
the new `cur` (`none` = NULL when no delimiter was found). -/
def strsep (d : Char) : Str → Str × Option Str
  | [] => ([], none)
  | c :: cs => if c = d then ([], some cs) else ((c :: (strsep d cs).1), (strsep d cs).2)

/-- What is left of a string after `strsep` is shorter than it. -/
theorem strsep_lt (d : Char) : ∀ (s : Str) (t r : _), strsep d s = (t, some r) → r.length < s.length
  | [], t, r, h => by simp [strsep] at h
  | c :: cs, t, r, h => by
    unfold strsep at h
    split at h
    · cases h; simp
    · have h2 : (strsep d cs).2 = some r := (Prod.mk.inj h).2
      have := strsep_lt d cs _ r (Prod.ext rfl h2)
      simp; omega

/-- `while((k=strsep(&cur, "d"))!=NULL) …`: the list of tokens the loop body sees. -/
def tokens (d : Char) (s : Str) : List Str :=
  match h : strsep d s with
  | (t, none) => [t]
  | (t, some r) => t :: tokens d r
termination_by s.length
decreasing_by exact strsep_lt d s _ _ h

/-- `strchr(k, d)`: `none` = NULL, otherwise the text before and after the first `d`. -/
def strchr (d : Char) : Str → Option (Str × Str)
  | [] => none
  | c :: cs => if c = d then some ([], cs) else (strchr d cs).map fun p => (c :: p.1, p.2)

end Verif
