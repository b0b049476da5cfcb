import Verif.Spec.Kinds
/-!
# What depends on which words

The words with numbers the parser reads, and the attributes of elements that have to do with them.
-/

namespace F15.Spec
variable {F : Type} [PyFloat F]

/-- Words that give a speed or a level. -/
def SpeedWord (t : Token) : Prop := t.base ∈ [.SPEED_ALTITUDE, .SPEED_ALTITUDE_ALTITUDE, .SPEED_ALTITUDE_PLUS, .SPEED_VFR]

/-- Words that give coordinates or a bearing. -/
def PlaceWord (t : Token) : Prop := t.sub ∈ [.LL_DEG, .LL_MIN, .LLBD_DEG, .LLBD_MIN, .PRP_BD]

/-- Words that give a staying time. -/
def StayWord (t : Token) : Prop := t.base = .STAY_TIME

/-- Words with numbers the parser reads. -/
def Numeric (t : Token) : Prop := SpeedWord t ∨ PlaceWord t ∨ StayWord t

/-- Words of the same kind; the same word, too, unless it is a mere name (a point, a route, a procedure, a keyword, free text, …). -/
def Renamed (t u : Token) : Prop := Alike t u ∧ (Numeric t → t.text = u.text)

/-- The same element but for its name, its place in the text and the remarks in it. -/
def SameValues (r s : Record F) : Prop :=
  { r with name := s.name, start := s.start, stop := s.stop, breakText := s.breakText } = s

/-- The same message about the words at the same place of the two texts. -/
def SameError (T U : List Token) (x y : Record F) : Prop :=
  ∃ t u n, Facing T U t u ∧ ErrorIs t n x ∧ ErrorIs u n y

/-- At each place where the first text has a word of the sort `P`, the other has the same word. -/
def Agree (P : Token → Prop) (T U : List Token) : Prop := ∀ t u, Facing T U t u → P t → t.text = u.text

/-- The same speeds and levels. -/
def SameSpeeds (r s : Record F) : Prop :=
  r.speed = s.speed ∧ r.speedSi = s.speedSi ∧ r.altitude = s.altitude ∧ r.altitudeSi = s.altitudeSi ∧ r.cruiseTo = s.cruiseTo ∧ r.cruiseToSi = s.cruiseToSi

/-- The same position, and the same course and distance to the next one. -/
def SamePosition (r s : Record F) : Prop :=
  r.latitude = s.latitude ∧ r.longitude = s.longitude ∧ r.latLongValid = s.latLongValid ∧ r.bearing = s.bearing ∧ r.distance = s.distance

/-- The same element but for its name, its place in the text, the remarks in it, and its speeds and levels. -/
def SameButNameAndSpeeds (r s : Record F) : Prop :=
  { r with
    name := s.name, start := s.start, stop := s.stop, breakText := s.breakText
    speed := s.speed, speedSi := s.speedSi, altitude := s.altitude, altitudeSi := s.altitudeSi
    cruiseTo := s.cruiseTo, cruiseToSi := s.cruiseToSi } = s

/-- The same messages about the same words, those with the numbers `free` aside. -/
inductive SameErrorsBut (free : Nat → Prop) (T U : List Token) : List (Record F) → List (Record F) → Prop
  | nil : SameErrorsBut free T U [] []
  | same {x y xs ys} : SameError T U x y → SameErrorsBut free T U xs ys → SameErrorsBut free T U (x :: xs) (y :: ys)
  | left {x xs ys t n} : t ∈ T → free n → ErrorIs t n x → SameErrorsBut free T U xs ys → SameErrorsBut free T U (x :: xs) ys
  | right {y xs ys u n} : u ∈ U → free n → ErrorIs u n y → SameErrorsBut free T U xs ys → SameErrorsBut free T U xs (y :: ys)

end F15.Spec
