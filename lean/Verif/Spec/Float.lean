import Mathlib.Analysis.Real.Sqrt
import Mathlib.Tactic.Linarith
import Mathlib.Tactic.NormNum
import Verif.Model.Py
import Verif.Spec.Shapes
import Verif.Spec.Position
import Verif.Spec.Values
/-!
# Rounded arithmetic

What is assumed of Python's floats where a property is about numbers: finite floats stand for real numbers, and the
result of every operation is the rounded exact result, as long as that is below `2^40`. The rounding is monotone,
has a small relative error and keeps whole numbers. IEEE 754 double arithmetic is of this kind (`near` with `2^-53` instead of `2^-50`); no
particular rounding mode is assumed. `Verif/Spec/FloatModels.lean` has instances.
-/

namespace F15.Spec

/-- Laws of rounded arithmetic. -/
structure Rounded (F : Type) [PyFloat F] where
  /-- finite numbers -/
  fin : F → Prop
  /-- the real number a finite float stands for -/
  val : F → ℝ
  /-- rounding -/
  rnd : ℝ → ℝ
  near : ∀ x, |x| ≤ 2 ^ 40 → |rnd x - x| ≤ (|x| + 1) / 2 ^ 50
  mono : ∀ x y, |x| ≤ 2 ^ 40 → |y| ≤ 2 ^ 40 → x ≤ y → rnd x ≤ rnd y
  whole : ∀ n : Int, |(n : ℝ)| ≤ 2 ^ 40 → rnd n = n
  dec : ∀ (m : Int) (e : Nat), |(m : ℝ) / 10 ^ e| ≤ 2 ^ 40 →
    fin (PyFloat.dec m e) ∧ val (PyFloat.dec m e) = rnd ((m : ℝ) / 10 ^ e)
  ofInt : ∀ n : Int, |(n : ℝ)| ≤ 2 ^ 40 → fin (PyFloat.ofInt n) ∧ val (PyFloat.ofInt n) = rnd n
  add : ∀ a b, fin a → fin b → |val a + val b| ≤ 2 ^ 40 → fin (PyFloat.add a b) ∧ val (PyFloat.add a b) = rnd (val a + val b)
  sub : ∀ a b, fin a → fin b → |val a - val b| ≤ 2 ^ 40 → fin (PyFloat.sub a b) ∧ val (PyFloat.sub a b) = rnd (val a - val b)
  mul : ∀ a b, fin a → fin b → |val a * val b| ≤ 2 ^ 40 → fin (PyFloat.mul a b) ∧ val (PyFloat.mul a b) = rnd (val a * val b)
  div : ∀ a b, fin a → fin b → val b ≠ 0 → |val a / val b| ≤ 2 ^ 40 →
    fin (PyFloat.div a b) ∧ val (PyFloat.div a b) = rnd (val a / val b)
  abs : ∀ a, fin a → fin (PyFloat.abs a) ∧ val (PyFloat.abs a) = |val a|
  sqrt : ∀ a, fin a → 0 ≤ val a → |Real.sqrt (val a)| ≤ 2 ^ 40 →
    fin (PyFloat.sqrt a) ∧ val (PyFloat.sqrt a) = rnd (Real.sqrt (val a))
  toInt : ∀ a, fin a → 0 ≤ val a → PyFloat.toInt a = ⌊val a⌋

/-- The metres of a level: `F` and `A` are hundreds of feet, `S` and `M` are tens of metres. -/
noncomputable def metres (lv : Str) : ℝ :=
  match lv with
  | 'F' :: d => numVal d * 100 * 0.3048
  | 'A' :: d => numVal d * 100 * 0.3048
  | 'S' :: d => numVal d * 10
  | 'M' :: d => numVal d * 10
  | _ => 0

/-- The speed of sound in metres per second at an altitude in metres: at 15 °C on the ground, 0.00645 °C colder for
every metre up to 11000 m, and proportional to the root of the absolute temperature. -/
noncomputable def soundSpeed (altitude : ℝ) : ℝ :=
  331.15 * Real.sqrt ((273.15 + 15 - 0.00645 * min altitude 11000) / 273.15)

/-- The metres per second of a speed at an altitude in metres: knots, kilometres per hour, or hundredths of the speed of
sound, which is taken to be 343 m/s at altitude 0. -/
noncomputable def metresPerSecond (sp : Str) (altitude : Int) : ℝ :=
  match sp with
  | 'N' :: d => numVal d * 0.514444
  | 'K' :: d => numVal d * 0.2777778
  | 'M' :: d => numVal d / 100 * (if altitude = 0 then 343 else soundSpeed altitude)
  | _ => 0

/-- An angle in a hemisphere, negative in the south and in the west. -/
noncomputable def signedAngle (h : Char) (x : ℝ) : ℝ := if h = 'S' ∨ h = 'W' then -x else x

/-- The text `s` is the latitude and longitude `lat`, `lon` in degrees, written `ddHdddH` or `ddmmHdddmmH`. -/
def WrittenPosition (s : Str) (lat lon : ℝ) : Prop :=
  (∃ a b h c d e k, s = [a, b, h, c, d, e, k] ∧ (∀ x ∈ [a, b, c, d, e], Digit x) ∧ h ∈ ['N', 'S'] ∧ k ∈ ['E', 'W'] ∧
    lat = signedAngle h (num2 a b) ∧ lon = signedAngle k (num3 c d e)) ∨
  (∃ a b c d h e f g i j k, s = [a, b, c, d, h, e, f, g, i, j, k] ∧ (∀ x ∈ [a, b, c, d, e, f, g, i, j], Digit x) ∧
    h ∈ ['N', 'S'] ∧ k ∈ ['E', 'W'] ∧
    lat = signedAngle h (num2 a b + num2 c d / 60) ∧ lon = signedAngle k (num3 e f g + num2 i j / 60))

end F15.Spec
