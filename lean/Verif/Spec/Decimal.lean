import Mathlib.Analysis.SpecialFunctions.Sqrt

/-!
# What a decimal numeral means
-/

namespace Openspace.Spec

noncomputable section

/-- the number written by a sequence of digits -/
def natural (s : List Char) : ℕ := s.foldl (fun n c => 10 * n + (c.toNat - '0'.toNat)) 0

/-- `s` is a decimal numeral with value `v` and `k` digits after the point: an optional minus sign, at least one digit,
a point, and `k` digits -/
def Decimal (k : ℕ) (s : List Char) (v : ℝ) : Prop :=
  ∃ (neg : Bool) (i f : List Char), s = (if neg then ['-'] else []) ++ (i ++ '.' :: f) ∧ i ≠ [] ∧ f.length = k ∧
    (∀ c ∈ i, c.isDigit = true) ∧ (∀ c ∈ f, c.isDigit = true) ∧
    v = (if neg then -1 else 1) * (natural i + natural f / 10 ^ k)

end

end Openspace.Spec
