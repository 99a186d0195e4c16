import Verif.Model.GbRules
import Verif.Spec.MkTable
import Verif.Spec.Gb18030
/-
The rule file /repo/modules/from/_GB18030.txt: the rules with a callback as they stand there, the other 30733 rules by
the form they have (checked by tools/gbrules.py).
-/
namespace Verif.Spec
open Verif.MkTable (Rule)

/-- The line `p* ?d`. -/
def starLine (x : List Nat × List Nat) : Rule :=
  { pat := (x.1.map fun c => (c, c)) ++ [(0, 256)], cb := true, dat := x.2 }

/-- A file of rules made up like from/_GB18030.txt: the callback rules are those of the file; every other rule is for a
two-byte code, or for a legal four-byte code outside the computed blocks, and has at most four bytes of data; there are no
more than 100000 rules. -/
structure GbFile (rs : List Rule) : Prop where
  size : rs.length ≤ 100000
  stars : rs.filter (·.cb) = Gb18030.stars.map starLine
  listed : ∀ r ∈ rs, r.cb = false → r.ci = false ∧ r.dat.length ≤ 4 ∧
    ((∃ a b, r.pat = [(a, a), (b, b)] ∧ a < 256 ∧ 0x40 ≤ b ∧ b < 256) ∨
     (∃ a b c d, r.pat = [(a, a), (b, b), (c, c), (d, d)] ∧ GbLegal a b c d ∧ ∀ cp, ¬ GbCode cp a b c d))

/-- The code points with a computed code for which the file has no rule. -/
def GbGap (cp : Nat) : Prop := (0x9FAD ≤ cp ∧ cp ≤ 0xA402) ∨ (0xA8EF ≤ cp ∧ cp ≤ 0xB7B2)

instance (cp : Nat) : Decidable (GbGap cp) := inferInstanceAs (Decidable (_ ∨ _))

end Verif.Spec
