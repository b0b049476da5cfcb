import Verif.Spec.Shapes
/-!
# Numeric readings of digit strings
-/

namespace F15.Spec

/-- The decimal number written by a string of digits. -/
def numVal (s : Str) : Nat := s.foldl (fun a c => 10 * a + dval c) 0

end F15.Spec
