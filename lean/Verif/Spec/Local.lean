import Verif.Spec.Sequence
import Verif.Spec.Story
import Verif.Spec.Ranges
/-!
# Which part of a field 15 an element is about

Every element of the route owns a stretch of the text: it begins after the element's own token and ends before the token of
the next element. The stretch of the departure aerodrome begins at the beginning.
-/

namespace F15.Spec
variable {F : Type} [PyFloat F]

/-- `n` is the number of minutes of a stay time `HHMM`. -/
def StayMinutes (s : Str) (n : Int) : Prop :=
  ∃ a b c d, s = [a, b, c, d] ∧ Digit a ∧ Digit b ∧ Digit c ∧ Digit d ∧
    n = (num2 a b : Int) * 60 + num2 c d ∧ num2 a b ≤ 23 ∧ num2 c d ≤ 59

/-- The texts of the tokens joined by single spaces. -/
def spaced (ws : List Token) : Str := ((ws.map (·.text)).intersperse [' ']).flatten

/-- Two elements have the same speed and level. -/
def SameSpeedLevel (p r : Record F) : Prop :=
  r.speed = p.speed ∧ r.speedSi = p.speedSi ∧ r.altitude = p.altitude ∧ r.altitudeSi = p.altitudeSi

/-- The over-long words of `T`. -/
def overlong (T : List Token) : List Token := T.filter (·.base = .TOO_LONG)

/-- What an element says comes from its own token, its stretch `g` of the tokens `T`, and the element `prev` before it. The words
`far` of its free text may stand elsewhere. -/
structure Local (T far : List Token) (prev : Option (Record F)) (own : Option Token) (g : List Token) (next : Option Token)
    (r : Record F) : Prop where
  /-- Without an own token it is the departure aerodrome. -/
  adep : own = none → Placeholder (py! "ADEP") r
  /-- Speed and level are those of the element before, or they are given in the stretch, or by the SPEED/VFR which is the
  element, or by a SPEED/VFR which is the next element. -/
  speedLevel : (∀ p, prev = some p → SameSpeedLevel p r) ∧
      (prev = none → r.speed = [] ∧ r.speedSi = 0 ∧ r.altitude = [] ∧ r.altitudeSi = 0) ∨
    ∃ t, (t ∈ g ∨ own = some t ∧ t.base = .SPEED_VFR ∨ next = some t ∧ t.base = .SPEED_VFR) ∧ Gives t r.speed r.altitude
  /-- A stay time is in the stretch. -/
  stay : r.stayTime = 0 ∨ ∃ t ∈ g, t.base = .STAY_TIME ∧ StayMinutes t.text r.stayTime
  /-- The upper level of a cruise climb is in the stretch. -/
  climb : r.cruiseTo = [] ∧ r.cruiseToSi = 0 ∨
    ∃ t ∈ g, (t.base = .SPEED_ALTITUDE_ALTITUDE ∨ t.base = .SPEED_ALTITUDE_PLUS) ∧ r.cruiseTo <:+ t.text
  /-- The words of free text are in the stretch, in this order (those in `far` are somewhere). -/
  text : ∃ ws, r.breakText = spaced ws ∧ (∀ w ∈ ws, w ∈ T) ∧ (ws.filter (· ∉ far)).Sublist g
  /-- The flight rules are IFR, or begun by the element, or those of the element before (none at the beginning). -/
  rules : ∀ t p, own = some t → prev = some p →
    r.rules = py! "IFR" ∨ t.base = .BREAK_START ∧ r.rules = rulesOfBreak t.sub ∨ t.base = .SPEED_VFR ∧ r.rules = py! "VFR" ∨
    r.rules = p.rules ∨ Placeholder (py! "ADEP") p ∧ r.rules = []

/-- `Divides T far prev own ts rs`: the elements `rs` divide the tokens `ts` among them. The first of them has the token `own` and
the element `prev` before it. -/
inductive Divides (T far : List Token) : Option (Record F) → Option Token → List Token → List (Record F) → Prop
  | last {prev own g r} : Local T far prev own g none r → Divides T far prev own g [r]
  | next {prev own g t ts r r' rs} : Local T far prev own g (some t) r → ElementOf t r' → Divides T far (some r) (some t) ts (r' :: rs) →
      Divides T far prev own (g ++ t :: ts) (r :: r' :: rs)

end F15.Spec
