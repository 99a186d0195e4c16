import Verif.Model.Listing
/-
Which filter or scorer a name loads: the loop at the beginning of `load_filter`, /repo/src/libbsdconv_filter.c:7-21, and of `load_scorer`,
/repo/src/libbsdconv_scorer.c:7-21 (the same).  Opening the shared object is not modelled.
-/
namespace Verif.Load

/-- `while(!bsdconv_module_check(..)){..}` with the name in upper case: `check` is the check for a module, `look` a lookup among the aliases. -/
inductive Loads (check : List Nat → Bool) (look : List Nat → Option (List Nat) → Prop) : List Nat → Option (List Nat) → Prop
  | here {n : List Nat} : check n = true → Loads check look n (some n)
  | unknown {n : List Nat} : check n = false → look n none → Loads check look n none
  | again {n : List Nat} : check n = false → look n (some n) → Loads check look n none
  | alias {n c : List Nat} {r : Option (List Nat)} : check n = false → look n (some c) → c ≠ n → Loads check look c r → Loads check look n r

/-- `bsdconv_solve_alias(SCORER, name)`: /repo/src/libbsdconv_module.c:49-50 -/
def noAlias (_ : List Nat) (r : Option (List Nat)) : Prop := r = none

/-- The filters made from /repo/modules/filter/type.c and their `TYPE`: /repo/modules/filter/UNICODE.c, CNS11643.c, BYTE.c, ANSI.c. -/
def typeFilters : List (String × Nat) := [("UNICODE", 1), ("CNS11643", 2), ("BYTE", 3), ("ANSI", 0x1b)]

end Verif.Load
