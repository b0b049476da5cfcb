import Verif.Spec.Meaning
import Verif.Spec.Prefix
/-!
# Vocabulary for "a route can be cut and joined at a point"
-/

namespace F15.Spec
variable {F : Type} [PyFloat F]

/-- The element without its speed and level. -/
def withoutSpeed (r : Record F) : Record F := { r with speed := [], altitude := [], speedSi := 0, altitudeSi := 0 }

/-- The same elements, but for their speeds and levels. -/
def SameButSpeeds (l l' : List (Record F)) : Prop := l.map withoutSpeed = l'.map withoutSpeed

end F15.Spec
