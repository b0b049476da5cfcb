import Verif.Model.Ers
/-!
# Records that differ at most in computed numbers
-/

namespace F15.Spec

/-- Everything an element or an error says in words, and whether its position is known, is the same. (Left out are the numbers computed with floating
point arithmetic: latitude, longitude, bearing, distance, and the speed and levels in SI units.) The two may use different arithmetics. -/
structure SameWords {F G : Type} (r : Record F) (s : Record G) : Prop where
  name : r.name = s.name
  start : r.start = s.start
  stop : r.stop = s.stop
  base : r.base = s.base
  sub : r.sub = s.sub
  altitude : r.altitude = s.altitude
  speed : r.speed = s.speed
  cruiseTo : r.cruiseTo = s.cruiseTo
  rules : r.rules = s.rules
  breakText : r.breakText = s.breakText
  stayTime : r.stayTime = s.stayTime
  errorText : r.errorText = s.errorText
  latLongValid : r.latLongValid = s.latLongValid

end F15.Spec
