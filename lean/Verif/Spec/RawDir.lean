import Verif.Model.Select

/-!
# Specification of raw file names

Independent of how the code takes names apart.
-/

namespace Gemlog

/-- `name` is `FILE`, four digits making the number `n`, a point and the three-character extension `ext`. -/
def NamedRaw (name : List Nat) (n : Nat) (ext : List Nat) : Prop :=
  ∃ a b c d : Nat, name = bytes "FILE" ++ [48 + a, 48 + b, 48 + c, 48 + d] ++ bytes "." ++ ext ∧
    a ≤ 9 ∧ b ≤ 9 ∧ c ≤ 9 ∧ d ≤ 9 ∧ n = 1000 * a + 100 * b + 10 * c + d ∧ ext.length = 3

end Gemlog
