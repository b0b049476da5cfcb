import Verif.Props.Meaning
/-!
# C28: exactly which elements have a position
-/

namespace F15
open Spec

set_option linter.unusedSectionVars false
variable {F : Type} [PyFloat F]

/-- **C28 (exactly)** In an accepted field 15 the element of a token has a position if and only if the token is written as latitude and longitude
and is not the overlooked one, the point between a word IFR that ends free text and `/` SPEED/VFR. -/
theorem c28_exact {frames : Nat} {tokens : Tokens} {e : Ers F} (h : parseF15 frames Ers.new tokens = .ok (true, e))
    (hne : ∀ t ∈ tokens.toks, t.text ≠ []) {before after : List (Token × Role)} {m : Token × Role}
    (hr : roles (typedTokens tokens) = before ++ m :: after) (hm : m.2.isElement = true) :
    ∃ r, e.elements[elementCount before + 1]? = some r ∧ RoleElement m r ∧
      (r.latLongValid = true ↔ isLatLong m.1.sub ∧ ¬ Overlooked before after) := by
  obtain ⟨r, h1, h2⟩ := (c68 h hne).route before m after hr hm
  refine ⟨r, h1, h2.name, fun hv => ?_, fun ⟨hl, ho⟩ => (h2.place hl ho).1⟩
  refine Classical.byContradiction fun hc => ?_
  have : ¬ isLatLong m.1.sub ∨ Overlooked before after := by
    by_cases hl : isLatLong m.1.sub
    · exact .inr (Classical.byContradiction fun ho => hc ⟨hl, ho⟩)
    · exact .inl hl
  rw [(h2.noPlace this).1] at hv
  cases hv

/-- A point with a position, one without, and the overlooked one. -/
example : check (py! "N0450F350 50N010E PNT VFR IFR 40N020W/N0120VFR") (fun b e => b && decide (e.elements.map (·.latLongValid) =
    [false, true, false, false, false, false, false])) = true := by decide +kernel

end F15
