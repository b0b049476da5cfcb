import Verif.Spec.Lost
/-!
# Vocabulary for "several garbled parts"
-/

namespace F15.Spec
variable {F : Type} [PyFloat F]

/-- The field 15 may end after the words `u`, under IFR and not in `C`. -/
def Resting (F : Type) [PyFloat F] (u : List Token) : Prop :=
  (∃ (frames : Nat) (e : Ers F), parseF15 frames Ers.new ⟨u, 0⟩ = .ok (true, e) ∧ e.elements.getLast?.map (·.rules) = some (py! "IFR")) ∧
  u.getLast?.map (·.text) ≠ some (py! "C")

/-- A part of the route, the word it is garbled into, and the words behind it. -/
structure Piece where
  part : List Token
  garbled : Token
  behind : List Token

/-- The correct words. -/
def correct (u : List Token) (ps : List Piece) : List Token := u ++ ps.flatMap fun p => p.part ++ p.behind

/-- The words with the parts garbled. -/
def torn (u : List Token) (ps : List Piece) : List Token := u ++ ps.flatMap fun p => p.garbled :: p.behind

/-- All parts lie between two places where the field 15 may end; between two parts there is at least one word. -/
inductive Between2 (F : Type) [PyFloat F] : List Token → List Piece → Prop
  | nil (u) : Between2 F u []
  | cons {u p ps} (before : Resting F u) (after : Resting F (u ++ p.part)) (some_ : p.part ≠ []) (hx : NoRemark p.part) (hv : NoRemark p.behind)
      (hw : CannotCome u p.garbled) (apart : p.behind ≠ [] ∨ ps = []) (rest : Between2 F (u ++ p.part ++ p.behind) ps) : Between2 F u (p :: ps)

/-- Two elements agree in everything but course, speed and level. -/
def Similar (r r' : Record F) : Prop :=
  r' = { r with bearing := r'.bearing, distance := r'.distance, speed := r'.speed, speedSi := r'.speedSi, altitude := r'.altitude, altitudeSi := r'.altitudeSi }

/-- Element by element similar. -/
def AllSimilar (l l' : List (Record F)) : Prop :=
  l.length = l'.length ∧ ∀ (i : Nat) (r r' : Record F), l[i]? = some r → l'[i]? = some r' → Similar r r'

/-- The elements of the first list are those of the second without elements of the given parts, in order. -/
inductive Missing : List (List Token) → List (Record F) → List (Record F) → Prop
  | whole {l l'} (h : AllSimilar l l') : Missing [] l l'
  | gap {xs x l l' b a a'} (h : Missing xs l l') (hb : ∀ r ∈ b, ∃ t ∈ x, r.start = t.start ∧ r.stop = t.stop) (ha : AllSimilar a a') :
      Missing (xs ++ [x]) (l ++ a) (l' ++ b ++ a')

end F15.Spec
