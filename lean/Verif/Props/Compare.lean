import Verif.Props.Units
import Verif.Spec.FloatModels
/-!
# C83: speeds and levels in SI units can be compared

The SI values of elements are whole numbers, so something is lost; but never the order: an element with a greater SI level is higher, one with a
greater SI speed is faster. And of two levels in the same unit nothing is lost at all.
-/

namespace F15
open Spec

set_option linter.unusedSectionVars false
variable {F : Type} [PyFloat F]

/-- **C83** Two elements, of one parse or of two, with levels in any units. The lower one has no greater SI altitude; in other words the one with the
smaller SI altitude is lower. -/
theorem c83_levels (L : Rounded F) {frames frames' : Nat} {tokens tokens' : Tokens} {b b' : Bool} {e e' : Ers F}
    (h : parseF15 frames Ers.new tokens = .ok (b, e)) (h' : parseF15 frames' Ers.new tokens' = .ok (b', e'))
    {r r' : Record F} (hr : r ∈ e.elements) (hr' : r' ∈ e'.elements) (hl : r.altitude ≠ []) (hl' : r'.altitude ≠ []) :
    (metres r.altitude ≤ metres r'.altitude → r.altitudeSi ≤ r'.altitudeSi) ∧
    (r.altitudeSi < r'.altitudeSi → metres r.altitude < metres r'.altitude) := by
  obtain ⟨h1, _⟩ | ⟨_, h1⟩ := c33 L h hr
  · exact absurd h1 hl
  obtain ⟨h2, _⟩ | ⟨_, h2⟩ := c33 L h' hr'
  · exact absurd h2 hl'
  rw [abs_lt] at h1 h2
  have key : metres r.altitude ≤ metres r'.altitude → r.altitudeSi ≤ r'.altitudeSi := fun hm => by
    have : (r.altitudeSi : ℝ) < (r'.altitudeSi + 1 : Int) := by push_cast; linarith
    have := Int.cast_lt.1 this
    omega
  refine ⟨key, fun hs => lt_of_not_ge fun hm => ?_⟩
  have : (r'.altitudeSi : ℝ) < (r.altitudeSi + 1 : Int) := by push_cast; linarith
  have := Int.cast_lt.1 this
  omega

/-- **C83** Of two levels in the same unit the SI altitudes compare as the levels do; in particular different levels have different SI altitudes. -/
theorem c83_same_unit (L : Rounded F) {frames frames' : Nat} {tokens tokens' : Tokens} {b b' : Bool} {e e' : Ers F}
    (h : parseF15 frames Ers.new tokens = .ok (b, e)) (h' : parseF15 frames' Ers.new tokens' = .ok (b', e'))
    {r r' : Record F} (hr : r ∈ e.elements) (hr' : r' ∈ e'.elements) {u : Char} {d d' : Str} (hl : r.altitude = u :: d) (hl' : r'.altitude = u :: d') :
    (r.altitudeSi < r'.altitudeSi ↔ numVal d < numVal d') ∧ (r.altitudeSi = r'.altitudeSi ↔ numVal d = numVal d') := by
  have gap : ∀ {x y : Record F} {f f' : Nat} {T T' : Tokens} {c c' : Bool} {g g' : Ers F}, parseF15 f Ers.new T = .ok (c, g) →
      parseF15 f' Ers.new T' = .ok (c', g') → x ∈ g.elements → y ∈ g'.elements → ∀ {p p' : Str}, x.altitude = u :: p → y.altitude = u :: p' →
      numVal p < numVal p' → x.altitudeSi < y.altitudeSi := by
    intro x y f f' T T' c c' g g' k k' hx hy p p' hp hp' hlt
    have hc : ∃ k : Nat, 10 ≤ k ∧ metres (u :: p) = (numVal p * (k : ℝ)) * (if u = 'F' ∨ u = 'A' then 0.3048 else 1) ∧
        metres (u :: p') = (numVal p' * (k : ℝ)) * (if u = 'F' ∨ u = 'A' then 0.3048 else 1) ∧ (u = 'F' ∨ u = 'A' → 100 ≤ k) := by
      obtain ⟨h1, _⟩ | ⟨l1, _⟩ := c33 L k hx
      · rw [hp] at h1; cases h1
      rw [hp] at l1
      rcases l1 with ⟨v, _, hv, he, _⟩ | ⟨v, _, hv, he, _⟩ <;> cases he <;>
        simp only [List.mem_cons, List.not_mem_nil, or_false] at hv <;> rcases hv with rfl | rfl
      · exact ⟨100, by norm_num, by simp [metres], by simp [metres], by simp⟩
      · exact ⟨100, by norm_num, by simp [metres], by simp [metres], by simp⟩
      · exact ⟨10, by norm_num, by simp [metres], by simp [metres], by simp⟩
      · exact ⟨10, by norm_num, by simp [metres], by simp [metres], by simp⟩
    obtain ⟨n, n1, n2, n3, n4⟩ := hc
    obtain ⟨h1, _⟩ | ⟨_, h1⟩ := c33 L k hx
    · rw [hp] at h1; cases h1
    obtain ⟨h2, _⟩ | ⟨_, h2⟩ := c33 L k' hy
    · rw [hp'] at h2; cases h2
    rw [hp, n2, abs_lt] at h1
    rw [hp', n3, abs_lt] at h2
    have hq : (numVal p : ℝ) + 1 ≤ numVal p' := by exact_mod_cast hlt
    have far : (numVal p * (n : ℝ)) * (if u = 'F' ∨ u = 'A' then 0.3048 else 1) + 2 ≤
        (numVal p' * (n : ℝ)) * (if u = 'F' ∨ u = 'A' then 0.3048 else 1) := by
      split
      · rename_i hu
        have : (100 : ℝ) ≤ n := by exact_mod_cast n4 hu
        nlinarith
      · have : (10 : ℝ) ≤ n := by exact_mod_cast n1
        nlinarith
    have : (x.altitudeSi : ℝ) < y.altitudeSi := by linarith [h1.2, h2.1]
    exact_mod_cast this
  have g1 := fun hlt => gap h h' hr hr' hl hl' hlt
  have g2 := fun hlt => gap h' h hr' hr hl' hl hlt
  have g3 : numVal d = numVal d' → r.altitudeSi = r'.altitudeSi := fun heq => by
    have hm : metres r.altitude = metres r'.altitude := by
      rw [hl, hl']; unfold metres; split <;> simp_all
    have k1 := (c83_levels L h h' hr hr' (by simp [hl]) (by simp [hl'])).1 hm.le
    have k2 := (c83_levels L h' h hr' hr (by simp [hl']) (by simp [hl])).1 hm.ge
    omega
  rcases Nat.lt_trichotomy (numVal d) (numVal d') with hlt | heq | hgt
  · have := g1 hlt; exact ⟨⟨fun _ => hlt, fun _ => this⟩, ⟨fun h => by omega, fun h => by omega⟩⟩
  · have := g3 heq; exact ⟨⟨fun _ => by omega, fun _ => by omega⟩, ⟨fun _ => heq, fun _ => this⟩⟩
  · have := g2 hgt; exact ⟨⟨fun _ => by omega, fun _ => by omega⟩, ⟨fun h => by omega, fun h => by omega⟩⟩

/-- **C83** Two elements, of one parse or of two, with speeds in knots or km/h: the slower one has no greater SI speed, and the one with the smaller SI
speed is slower. With Mach numbers, whose speed is calculated to 0.002 m/s only, this is certain if the SI speeds differ by two or more. -/
theorem c83_speeds (L : Rounded F) {frames frames' : Nat} {tokens tokens' : Tokens} {b b' : Bool} {e e' : Ers F}
    (h : parseF15 frames Ers.new tokens = .ok (b, e)) (h' : parseF15 frames' Ers.new tokens' = .ok (b', e'))
    {r r' : Record F} (hr : r ∈ e.elements) (hr' : r' ∈ e'.elements) (hs : r.speed ≠ []) (hs' : r'.speed ≠ []) :
    (r.speed.head? ≠ some 'M' → r'.speed.head? ≠ some 'M' →
      (metresPerSecond r.speed r.altitudeSi ≤ metresPerSecond r'.speed r'.altitudeSi → r.speedSi ≤ r'.speedSi) ∧
      (r.speedSi < r'.speedSi → metresPerSecond r.speed r.altitudeSi < metresPerSecond r'.speed r'.altitudeSi)) ∧
    (r.speedSi + 2 ≤ r'.speedSi → metresPerSecond r.speed r.altitudeSi < metresPerSecond r'.speed r'.altitudeSi) := by
  obtain ⟨h1, _⟩ | ⟨_, _, h1, k1⟩ := c34 L h hr
  · exact absurd h1 hs
  obtain ⟨h2, _⟩ | ⟨_, _, h2, k2⟩ := c34 L h' hr'
  · exact absurd h2 hs'
  refine ⟨fun hm hm' => ?_, fun hd => ?_⟩
  · have h1 := abs_lt.1 (h1 hm)
    have h2 := abs_lt.1 (h2 hm')
    refine ⟨fun hv => ?_, fun hd => lt_of_not_ge fun hv => ?_⟩
    · have : (r.speedSi : ℝ) < (r'.speedSi + 1 : Int) := by push_cast; linarith
      have := Int.cast_lt.1 this
      omega
    · have : (r'.speedSi : ℝ) < (r.speedSi + 1 : Int) := by push_cast; linarith
      have := Int.cast_lt.1 this
      omega
  · rw [abs_lt] at k1 k2
    have : (r.speedSi : ℝ) + 2 ≤ r'.speedSi := by exact_mod_cast hd
    linarith

/-- Levels and speeds in all units, in ascending order; the laws hold of IEEE doubles. -/
example : Nonempty (Rounded Double) ∧
    check (py! "N0450F350 ABC/K0835F355 DEF/N0452S1083 GHI/K0840M1084") (fun b e => b && decide
    (e.elements.map (fun r => (r.altitude, r.altitudeSi, r.speedSi)) = [(py! "F350", 10668, 231), (py! "F355", 10820, 232),
      (py! "S1083", 10830, 233), (py! "M1084", 10840, 233), ([], 0, 0)])) = true := by
  refine ⟨⟨Rounded.double⟩, by decide +kernel⟩

end F15
