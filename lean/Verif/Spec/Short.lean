import Verif.Spec.Print
/-!
# Reading the short form of a record
-/

namespace F15.Spec

/-- The text up to the first blank. -/
def beforeBlank (s : Str) : Str := s.takeWhile (· ≠ ' ')

/-- The text after the first blank. -/
def afterBlank (s : Str) : Str := (s.dropWhile (· ≠ ' ')).tail

/-- The first `n` texts, each ended by one blank, and then what remains, without blanks at its ends. A text that is not there is empty. -/
def readCells : Nat → Str → List Str
  | 0, s => [trim s]
  | n + 1, s => beforeBlank s :: readCells n (afterBlank s)

/-- The texts in the four columns of a line of the syntax table. The pattern takes what the others leave: they are 41 columns for the name of the
base type with a blank before it, 4 for its number, 41 and 4 for the subtype. -/
def descriptionCells (line : Str) : List Str := (columns [line.length - 90, 41, 4, 41] line).map trim

end F15.Spec
