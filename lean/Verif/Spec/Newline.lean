import Verif.Spec.Tokens
/-
Lines of a text, independent of how their ends are written.
-/
namespace Verif.Spec

/-- Carriage return and line feed. -/
def CR : Datum := [1, 0x0D]
def LF : Datum := [1, 0x0A]

/-- `Text ds xs`: `ds` reads as `xs`, where `none` is the end of a line — CR LF, LF, or a CR that no LF follows — and
`some d` is a datum other than CR and LF. -/
inductive Text : List Datum → List (Option Datum) → Prop
  | nil : Text [] []
  | crlf {ds xs} : Text ds xs → Text (CR :: LF :: ds) (none :: xs)
  | lf {ds xs} : Text ds xs → Text (LF :: ds) (none :: xs)
  | cr {ds xs} : Text ds xs → (∀ r, ds ≠ LF :: r) → Text (CR :: ds) (none :: xs)
  | other {d ds xs} : d ≠ CR → d ≠ LF → Text ds xs → Text (d :: ds) (some d :: xs)

/-- The text written with `nl` for the end of a line. -/
def written (nl : List Datum) : List (Option Datum) → List Datum
  | [] => []
  | none :: xs => nl ++ written nl xs
  | some d :: xs => d :: written nl xs

end Verif.Spec
