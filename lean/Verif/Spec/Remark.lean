import Verif.Spec.Insert
/-!
# Vocabulary for "what is said about a point concerns the point and what follows"
-/

namespace F15.Spec
variable {F : Type} [PyFloat F]

/-- The element without what remarks can say about it: speed, level and stay. -/
def withoutRemarks (r : Record F) : Record F := { withoutSpeed r with stayTime := 0 }

/-- The minutes of the stay among the remarks, 0 if there is none. -/
def StayIn (s : List Token) (n : Int) : Prop :=
  (n = 0 ∧ ∀ t ∈ s, t.base ≠ .STAY_TIME) ∨ ∃ t ∈ s, t.base = .STAY_TIME ∧ StayMinutes t.text n

/-- The speed and level given last among the remarks, those of the element `d` if there are none. -/
def SpeedIn (s : List Token) (d r : Record F) : Prop :=
  (∃ a t b, s = a ++ t :: b ∧ t.base = .SPEED_ALTITUDE ∧ (∀ x ∈ b, x.base ≠ .SPEED_ALTITUDE) ∧ Gives t r.speed r.altitude) ∨
  ((∀ t ∈ s, t.base ≠ .SPEED_ALTITUDE) ∧ r.speed = d.speed ∧ r.altitude = d.altitude)

/-- The elements `l'` are the elements `l`, with the remarks `s` about element number `n` instead of others. -/
structure Remarked (n : Nat) (s : List Token) (l l' : List (Record F)) : Prop where
  /-- nothing but speeds, levels and stays differs anywhere -/
  same : l.map withoutRemarks = l'.map withoutRemarks
  /-- nothing at all differs in the elements before -/
  before : l.take n = l'.take n
  /-- the element itself has the stay, the speed and the level given in the remarks; each of the elements behind is either the same or
  has in both cases the speed and level of the element `n` -/
  here : ∃ d r r', l'[n - 1]? = some d ∧ l[n]? = some r ∧ l'[n]? = some r' ∧ StayIn s r'.stayTime ∧ SpeedIn s d r' ∧
    ∀ (i : Nat) x x', n < i → l[i]? = some x → l'[i]? = some x' →
      x = x' ∨ (x.stayTime = x'.stayTime ∧ x.speed = r.speed ∧ x.altitude = r.altitude ∧ x'.speed = r'.speed ∧ x'.altitude = r'.altitude)

end F15.Spec
