import Verif.Spec.Shapes
import Verif.Model.Ers
/-!
# Vocabulary for positions
-/

namespace F15.Spec
variable {F : Type} [PyFloat F]

/-- The float `±x`, negative for the hemispheres S and W. -/
def hemi (h : Char) (x : F) : F := if h = 'S' ∨ h = 'W' then PyFloat.mul x (PyFloat.dec (-10) 1) else x

/-- The float of a whole number of degrees. -/
def degrees (d : Nat) : F := PyFloat.ofInt d

/-- The float `d + m / 60.0`. -/
def degreesMinutes (d m : Nat) : F := PyFloat.add (PyFloat.ofInt d) (PyFloat.div (PyFloat.ofInt m) (PyFloat.dec 600 1))

/-- Value of two digits. -/
def num2 (a b : Char) : Nat := 10 * dval a + dval b
/-- Value of three digits. -/
def num3 (a b c : Char) : Nat := 100 * dval a + 10 * dval b + dval c

/-- The position written as `ddHdddH`. -/
def DegPosition (s : Str) (p : F × F) : Prop :=
  ∃ a b h c d e k, s = [a, b, h, c, d, e, k] ∧ (∀ x ∈ [a, b, c, d, e], Digit x) ∧ h ∈ ['N', 'S'] ∧ k ∈ ['E', 'W'] ∧
    p = (hemi h (degrees (num2 a b)), hemi k (degrees (num3 c d e)))

/-- The position written as `ddmmHdddmmH`. -/
def MinPosition (s : Str) (p : F × F) : Prop :=
  ∃ a b c d h e f g i j k, s = [a, b, c, d, h, e, f, g, i, j, k] ∧ (∀ x ∈ [a, b, c, d, e, f, g, i, j], Digit x) ∧ h ∈ ['N', 'S'] ∧ k ∈ ['E', 'W'] ∧
    p = (hemi h (degreesMinutes (num2 a b) (num2 c d)), hemi k (degreesMinutes (num3 e f g) (num2 i j)))

/-- The point at bearing and distance (nautical miles of 1852 m) `s = BBBDDD` from `p`. -/
def OffsetPosition (s : Str) (p q : F × F) : Prop :=
  ∃ a b c d e f, s = [a, b, c, d, e, f] ∧ (∀ x ∈ s, Digit x) ∧
    q = PyFloat.direct p.1 p.2 (PyFloat.ofInt (num3 a b c)) (PyFloat.mul (PyFloat.ofInt (num3 d e f)) (PyFloat.ofInt 1852))

/-- The four subtypes of points given by latitude and longitude. -/
def isLatLong (s : SubType) : Prop := s = .LL_DEG ∨ s = .LL_MIN ∨ s = .LLBD_DEG ∨ s = .LLBD_MIN

/-- The position of an element is what its text says: the latitude and longitude, or the point at the given bearing
and distance from them. -/
def DecodedPosition (r : Record F) : Prop :=
  (r.sub = .LL_DEG ∧ DegPosition r.name (r.latitude, r.longitude)) ∨
  (r.sub = .LL_MIN ∧ MinPosition r.name (r.latitude, r.longitude)) ∨
  (r.sub = .LLBD_DEG ∧ ∃ u v p, r.name = u ++ v ∧ DegPosition u p ∧ OffsetPosition v p (r.latitude, r.longitude)) ∨
  (r.sub = .LLBD_MIN ∧ ∃ u v p, r.name = u ++ v ∧ MinPosition u p ∧ OffsetPosition v p (r.latitude, r.longitude))

/-- Azimuth and distance from one element to another. -/
def course (r q : Record F) : F × F := PyFloat.inverse r.latitude r.longitude q.latitude q.longitude

/-- The bearing and distance of an element, given the elements that follow it: to the next element if that has a
position, otherwise to the one after it if that has a position, otherwise none. -/
def courseOf (r : Record F) (following : List (Record F)) : F × F :=
  if r.latLongValid then
    match following with
    | [] => (fzero, fzero)
    | q :: rest =>
      if q.latLongValid then course r q
      else match rest with
        | [] => (fzero, fzero)
        | q' :: _ => if q'.latLongValid then course r q' else (fzero, fzero)
  else (fzero, fzero)

end F15.Spec
