import Verif.Spec.Position
/-!
# Vocabulary for the ranges of angles and the granularity of levels
-/

namespace F15.Spec

/-- The latitude `dd` at the start of `s` exceeds 90 degrees. -/
def LatDegBad (s : Str) : Prop := ∃ a b r, s = a :: b :: r ∧ num2 a b > 90
/-- The longitude `ddd` after `ddH` exceeds 180 degrees. -/
def LonDegBad (s : Str) : Prop := ∃ a b h c d e r, s = a :: b :: h :: c :: d :: e :: r ∧ num3 c d e > 180
/-- The latitude `ddmm` at the start of `s` has more than 59 minutes or exceeds 90 degrees. -/
def LatMinBad (s : Str) : Prop :=
  ∃ a b c d r, s = a :: b :: c :: d :: r ∧ (num2 c d > 59 ∨ num2 a b * 60 + num2 c d > 90 * 60)
/-- The longitude `dddmm` after `ddmmH` has more than 59 minutes or exceeds 180 degrees. -/
def LonMinBad (s : Str) : Prop :=
  ∃ a b c d h e f g i j r, s = a :: b :: c :: d :: h :: e :: f :: g :: i :: j :: r ∧
    (num2 i j > 59 ∨ num3 e f g * 60 + num2 i j > 180 * 60)
/-- The bearing in the final `BBBDDD` of `s` exceeds 360 degrees. -/
def BearingBad (s : Str) : Prop := ∃ u a b c d e f, s = u ++ [a, b, c, d, e, f] ∧ num3 a b c > 360

/-- A point of the given subtype and text deserves the range error with number `n`. -/
def RangeFault (sub : SubType) (s : Str) (n : Nat) : Prop :=
  ((sub = .LL_DEG ∨ sub = .LLBD_DEG) ∧ (n = 42 ∧ LatDegBad s ∨ n = 44 ∧ LonDegBad s)) ∨
  ((sub = .LL_MIN ∨ sub = .LLBD_MIN) ∧ (n = 43 ∧ LatMinBad s ∨ n = 45 ∧ LonMinBad s)) ∨
  ((sub = .PRP_BD ∨ sub = .LLBD_DEG ∨ sub = .LLBD_MIN) ∧ n = 46 ∧ BearingBad s)

/-- The first range error about a point: the latitude comes before the longitude, the longitude before the bearing. -/
def FirstRangeFault (sub : SubType) (s : Str) (n : Nat) : Prop := RangeFault sub s n ∧ ∀ m, RangeFault sub s m → n ≤ m

end F15.Spec
