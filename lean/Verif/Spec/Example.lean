import Verif.Model.Parser
/-!
# A concrete float type for the examples and counterexamples

Exact rationals. The geodesic routines are replaced by plane geometry in degrees; nothing that is proved for
all float types depends on this file, it only serves to run the model inside the kernel.
-/

namespace F15

/-- Rational square root by six Newton steps (examples only). -/
def ratSqrt (x : Rat) : Rat :=
  let f := fun y : Rat => (y + x / y) / 2
  if x ≤ 0 then 0 else f (f (f (f (f (f 1)))))

/-- Exact rational arithmetic in place of floats. -/
instance : PyFloat Rat where
  dec m e := mkRat m (10 ^ e)
  ofInt n := n
  add := (· + ·)
  sub := (· - ·)
  mul := (· * ·)
  div := (· / ·)
  abs x := if x < 0 then -x else x
  sqrt := ratSqrt
  toInt x := Int.tdiv x.num x.den
  fmt2 _ := []
  direct lat lon azi dist := (lat + dist / 111120, lon + azi)
  inverse lat1 lon1 lat2 lon2 := (lon2 - lon1, (lat2 - lat1) * 111120)

/-- Tokenize and parse a field 15 text with 1000 stack frames (the use documented in README.md). -/
def parseText (s : Str) : Except PyErr (Bool × Ers Rat) :=
  parseF15 1000 Ers.new ⟨tokenizeList f15Whitespace s, 0⟩

/-- Names of the elements, texts of the errors, derived rules, and the result of a parse. -/
def summary (s : Str) : Option (Bool × List Str × List Str × Str) :=
  match parseText s with
  | .ok (b, e) => some (b, e.elements.map (·.name), e.errors.map (·.errorText), e.derived)
  | .error _ => none

/-- The text is parsed and the result satisfies the test. -/
def check (s : Str) (p : Bool → Ers Rat → Bool) : Bool :=
  match parseText s with
  | .ok (b, e) => p b e
  | .error _ => false

theorem check_ok {s : Str} {p : Bool → Ers Rat → Bool} (h : check s p = true) :
    ∃ b e, parseText s = .ok (b, e) ∧ p b e = true := by
  unfold check at h
  split at h
  · exact ⟨_, _, by assumption, h⟩
  · cases h

end F15
