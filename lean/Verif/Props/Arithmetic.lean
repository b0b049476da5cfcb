import Verif.Lemmas.Arithmetic
import Verif.Spec.Example
import Verif.Spec.Wording
/-!
# The arithmetic decides nothing

C88: whatever the floating point arithmetic (and the geodesic library) computes, the words of the result are the same.
-/

namespace F15
open Spec

set_option linter.unusedSectionVars false
variable {F G : Type} [PyFloat F] [PyFloat G]

/-- **C88** Whatever the two arithmetics, and whatever the two sequences have collected, if it is the same in words: parsing the same field 15 raises the same
exception, or gives the same verdict, elements and errors that say the same in words (name, place, kind, speed, levels, flight rules, free text, time, error
text, whether the position is known), and the same derived flight rules. -/
theorem c88 (n : Nat) (e : Ers F) (f : Ers G) (tokens : Tokens) (he : All2 SameWords e.elements f.elements) (hx : All2 SameWords e.errors f.errors)
    (hd : e.derived = f.derived) :
    (∃ x, parseF15 n e tokens = .error x ∧ parseF15 n f tokens = .error x) ∨
    ∃ b e' f', parseF15 n e tokens = .ok (b, e') ∧ parseF15 n f tokens = .ok (b, f') ∧
      All2 SameWords e'.elements f'.elements ∧ All2 SameWords e'.errors f'.errors ∧ e'.derived = f'.derived := by
  have hs : SameErs e f := by
    refine ⟨?_, ?_, hd⟩
    · have := he.flip; simpa [Ers.elements] using this
    · have := hx.flip; simpa [Ers.errors] using this
  rw [parse_eq, parse_eq]
  have := parseL_same n hs (tokens.toks.map assignSyntax)
  cases h1 : parseL n e (tokens.toks.map assignSyntax) <;> cases h2 : parseL n f (tokens.toks.map assignSyntax) <;> rw [h1, h2] at this
  · exact .inl ⟨_, rfl, congrArg _ (Eq.symm this)⟩
  · exact this.elim
  · exact this.elim
  · rename_i p q
    obtain ⟨b, e'⟩ := p
    obtain ⟨c, f'⟩ := q
    obtain ⟨hb, hr⟩ := this
    dsimp only at hb hr
    subst hb
    exact .inr ⟨b, e', f', rfl, rfl, hr.recs.flip, hr.errs.flip, hr.derived⟩

theorem new_same_ers : All2 SameWords (Ers.new : Ers F).elements (Ers.new : Ers G).elements := .cons (new_same ..) .nil

/-- **C88** For a text: it is accepted under the one arithmetic if and only if it is under the other. -/
theorem c88_accepted (n : Nat) (tokens : Tokens) :
    (∃ e : Ers F, parseF15 n Ers.new tokens = .ok (true, e)) ↔ ∃ f : Ers G, parseF15 n Ers.new tokens = .ok (true, f) := by
  rcases c88 (F := F) (G := G) n Ers.new Ers.new tokens new_same_ers .nil rfl with ⟨x, h1, h2⟩ | ⟨b, e', f', h1, h2, _⟩
  · rw [h1, h2]; simp
  · rw [h1, h2]
    constructor
    · rintro ⟨e, h⟩; cases h; exact ⟨_, rfl⟩
    · rintro ⟨e, h⟩; cases h; exact ⟨_, rfl⟩

/-- An arithmetic in which every result is the same. -/
def noArithmetic : PyFloat Unit where
  dec _ _ := ()
  ofInt _ := ()
  add _ _ := ()
  sub _ _ := ()
  mul _ _ := ()
  div _ _ := ()
  abs _ := ()
  sqrt _ := ()
  toInt _ := 0
  fmt2 _ := []
  direct _ _ _ _ := ((), ())
  inverse _ _ _ _ := ((), ())

/-- The verdict, the names, speeds and levels of the elements and the texts of the errors, found with no arithmetic. -/
def bareWords (s : Str) : Option (Bool × List Str × List Str × Str) :=
  match @parseF15 Unit noArithmetic 100 (@Ers.new Unit noArithmetic) ⟨tokenizeList f15Whitespace s, 0⟩ with
  | .ok (b, e) => some (b, e.elements.map (fun r => r.name ++ '/' :: r.speed ++ r.altitude), e.errors.map (·.errorText), e.derived)
  | .error _ => none

/-- With no arithmetic at all the words of the result come out: the speeds, levels, error and derived rules of a route with a wrong level and wrong coordinates. -/
example : bareWords (py! "N0450F352 95N010W DCT ABC/M082F370 VFR") =
  some (false, [py! "ADEP/N0450F352", py! "95N010W/N0450F352", py! "DCT/N0450F352", py! "ABC/M082F370", py! "VFR/M082F370", py! "ADES/"],
    [says 40 (py! "N0450F352"), says 42 (py! "95N010W")], py! "Y") := by
  decide +kernel

/-- The numbers do depend on it: the level in metres is 0 with no arithmetic, and 10668 with the rational numbers. -/
example : (match @parseF15 Unit noArithmetic 100 (@Ers.new Unit noArithmetic) ⟨tokenizeList f15Whitespace (py! "N0450F350 ABC"), 0⟩ with
    | .ok (_, e) => e.elements.map (·.altitudeSi) | .error _ => []) = [0, 0, 0] ∧
  (match parseText (py! "N0450F350 ABC") with | .ok (_, e) => e.elements.map (·.altitudeSi) | .error _ => []) = [10668, 10668, 0] := by
  decide +kernel

end F15
