import Verif.Spec.Meaning
import Verif.Spec.Ranges
import Verif.Spec.Grammar
import Verif.Spec.Sequence
/-!
# The wrong numbers of a field 15

A field 15 can be right in form and wrong in its numbers: a flight level that is not a multiple of five, a position or a bearing out of
range. `Reported` relates the words of such a field 15 to the messages it deserves.
-/

namespace F15.Spec
variable {F : Type} [PyFloat F]

/-- Message 40 about a level that is not acceptable. -/
def LevelReports (level : Str) (l : List Nat) : Prop := (FiveStep level ∧ l = []) ∨ (¬ FiveStep level ∧ l = [40])

/-- The range messages of a point: each that applies once, latitude before longitude before bearing. -/
def RangeReports (t : Token) (l : List Nat) : Prop := l.Pairwise (· < ·) ∧ ∀ n, n ∈ l ↔ RangeFault t.sub t.text n

/-- The numbers of the messages about one word, between the words `before` and `after`. -/
def WordReports (before : List (Token × Role)) (m : Token × Role) (after : List (Token × Role)) (l : List Nat) : Prop :=
  match m.2 with
  | .head => if m.1.base = .POINT then (Overlooked before after ∧ l = []) ∨ (¬ Overlooked before after ∧ RangeReports m.1 l) else l = []
  | .slot => RangeReports m.1 l
  | .note =>
    match m.1.base with
    | .SPEED_ALTITUDE => ∃ a b, Speed a ∧ Level b ∧ m.1.text = a ++ b ∧ LevelReports b l
    | .SPEED_ALTITUDE_PLUS => ∃ a b, Speed a ∧ Level b ∧ m.1.text = a ++ b ++ py! "PLUS" ∧ LevelReports b l
    | .SPEED_ALTITUDE_ALTITUDE => ∃ a b c, Speed a ∧ Level b ∧ Level c ∧ m.1.text = a ++ b ++ c ∧ ∃ l1 l2, l = l1 ++ l2 ∧
        LevelReports b l1 ∧
        -- the second level is looked at only behind a speed of five characters and a level of four (see `c37_false`)
        (if a.length = 5 ∧ b.length = 4 then LevelReports c l2 else l2 = [])
    | _ => l = []
  | _ => l = []

/-- The records of messages about one word. -/
inductive Messages (t : Token) : List Nat → List (Record F) → Prop
  | nil : Messages t [] []
  | cons {n l x xs} (hx : ErrorIs t n x) (h : Messages t l xs) : Messages t (n :: l) (x :: xs)

/-- `errors` are the records of the messages the words deserve, in the order of the words. -/
inductive Reported : List (Token × Role) → List (Token × Role) → List (Record F) → Prop
  | nil {before} : Reported before [] []
  | cons {before m after l xs ys} (hw : WordReports before m after l) (hx : Messages m.1 l xs)
      (h : Reported (before ++ [m]) after ys) : Reported before (m :: after) (xs ++ ys)

end F15.Spec
