import Verif.Model.Average

/-! What it means that most measurements are right. -/
namespace Verif.Spec.Majority
open Verif.Average

/-- More than half of the entries of a list have the property: they are `good` and `bad` ones in some order, with fewer bad
than good ones. -/
def Most {A : Type} (p : A → Prop) (l : List A) : Prop :=
  ∃ good bad : List A, l.Perm (good ++ bad) ∧ bad.length < good.length ∧ ∀ a ∈ good, p a

/-- The six numbers of two poses differ by at most `δ`. -/
structure Near {K : Type} [Field K] [LinearOrder K] (δ : K) (u v : Vec6 K) : Prop where
  r1 : |u.r1 - v.r1| ≤ δ
  r2 : |u.r2 - v.r2| ≤ δ
  r3 : |u.r3 - v.r3| ≤ δ
  t1 : |u.t1 - v.t1| ≤ δ
  t2 : |u.t2 - v.t2| ≤ δ
  t3 : |u.t3 - v.t3| ≤ δ

end Verif.Spec.Majority
