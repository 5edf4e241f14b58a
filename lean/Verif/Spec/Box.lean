import Verif.Model.F32

/-!
# Specification: the smallest and the largest of a list

Bounding boxes are made of these, component by component.
-/

namespace Zcm

/-- `m` is the smallest number of the list `l` of binary32 values: it occurs in the list, it is not a NaN, and every member
that is not a NaN is at least `m`. -/
def SmallestOf (m : F32) (l : List F32) : Prop := m ∈ l ∧ m ≠ .nan ∧ ∀ a ∈ l, a ≠ .nan → m ≤ a

/-- `m` is the largest number of the list `l` of binary32 values: it occurs in the list, it is not a NaN, and every member
that is not a NaN is at most `m`. -/
def LargestOf (m : F32) (l : List F32) : Prop := m ∈ l ∧ m ≠ .nan ∧ ∀ a ∈ l, a ≠ .nan → a ≤ m

/-- `m` is the smallest integer of the list `l`. -/
def LeastOf (m : ℤ) (l : List ℤ) : Prop := m ∈ l ∧ ∀ a ∈ l, m ≤ a

/-- `m` is the largest integer of the list `l`. -/
def GreatestOf (m : ℤ) (l : List ℤ) : Prop := m ∈ l ∧ ∀ a ∈ l, a ≤ m

end Zcm
