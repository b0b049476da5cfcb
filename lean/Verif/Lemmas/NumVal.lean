import Verif.Spec.Position
import Verif.Spec.Values
/-!
# Values of two and three digits
-/

namespace F15
open Spec

theorem numVal2 (a b : Char) : numVal [a, b] = num2 a b := by simp [numVal, num2]
theorem numVal3 (a b c : Char) : numVal [a, b, c] = num3 a b c := by simp only [numVal, num3, List.foldl]; omega

end F15
