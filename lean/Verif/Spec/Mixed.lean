import Verif.Spec.Proc

/-! A list of rules for sequences of data, followed by a codec that does something with every single datum no rule
applies to. -/

namespace Verif.Spec

variable {π : Type}

/-- What comes out: the replacement of every matched sequence, and for every other datum what the last codec makes of it. -/
def mixOut (act : π → List Nat → π × List (List Nat)) : π → List (Tok (List Nat) (List (List Nat))) → List (List Nat)
  | _, [] => []
  | t, .hit b :: ts => b ++ mixOut act t ts
  | t, .miss d :: ts => (act t d).2 ++ mixOut act (act t d).1 ts

/-- The last codec's private data in the end. -/
def mixEnd (act : π → List Nat → π × List (List Nat)) : π → List (Tok (List Nat) (List (List Nat))) → π
  | t, [] => t
  | t, .hit _ :: ts => mixEnd act t ts
  | t, .miss d :: ts => mixEnd act (act t d).1 ts

end Verif.Spec
