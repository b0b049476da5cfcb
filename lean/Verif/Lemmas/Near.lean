import Verif.Spec.Float
import Verif.Model.Parser
import Mathlib.Tactic.Positivity
import Mathlib.Tactic.Ring
import Mathlib.Tactic.FieldSimp
/-!
# Error bounds of rounded arithmetic
-/

namespace F15
open Spec

variable {F : Type} [PyFloat F] (L : Rounded F)

/-- `x` is finite and stands for a number that differs from `r` by at most `d`. -/
def Near (x : F) (r d : ℝ) : Prop := L.fin x ∧ |L.val x - r| ≤ d

variable {L}

theorem Near.weaken {x : F} {r d d' : ℝ} (h : Near L x r d) (hd : d ≤ d') : Near L x r d' := ⟨h.1, h.2.trans hd⟩

theorem round_step {v r d R d' : ℝ} (h : |v - r| ≤ d) (hr : |r| ≤ R) (hR : R + d ≤ 2 ^ 40) (hd : d + (R + d + 1) / 2 ^ 50 ≤ d') :
    |v| ≤ 2 ^ 40 ∧ |L.rnd v - r| ≤ d' := by
  have hv : |v| ≤ R + d := by
    have : v = r + (v - r) := by ring
    rw [this]; exact (abs_add_le _ _).trans (add_le_add hr h)
  have h40 := hv.trans hR
  refine ⟨h40, ?_⟩
  have h1 := L.near v h40
  have : L.rnd v - r = (L.rnd v - v) + (v - r) := by ring
  rw [this]
  refine (abs_add_le _ _).trans ?_
  have : (|v| + 1) / 2 ^ 50 ≤ (R + d + 1) / 2 ^ 50 := by
    apply div_le_div_of_nonneg_right _ (by positivity); linarith
  linarith

theorem near_ofInt (n : Int) {R d : ℝ} (hr : |(n : ℝ)| ≤ R) (hR : R ≤ 2 ^ 40) (hd : (R + 1) / 2 ^ 50 ≤ d) :
    Near L (PyFloat.ofInt n) n d := by
  obtain ⟨h1, h2⟩ := round_step (L := L) (v := n) (r := n) (d := 0) (R := R) (d' := d) (by simp) hr (by linarith) (by linarith)
  obtain ⟨h3, h4⟩ := L.ofInt n h1
  exact ⟨h3, by rw [h4]; exact h2⟩

theorem near_dec (m : Int) (e : Nat) {r R d : ℝ} (he : (m : ℝ) / 10 ^ e = r) (hr : |r| ≤ R) (hR : R ≤ 2 ^ 40)
    (hd : (R + 1) / 2 ^ 50 ≤ d) : Near L (PyFloat.dec m e) r d := by
  subst he
  obtain ⟨h1, h2⟩ := round_step (L := L) (v := (m : ℝ) / 10 ^ e) (r := (m : ℝ) / 10 ^ e) (d := 0) (R := R) (d' := d)
    (by simp) hr (by linarith) (by linarith)
  obtain ⟨h3, h4⟩ := L.dec m e h1
  exact ⟨h3, by rw [h4]; exact h2⟩

theorem Near.add {x y : F} {r s a b R d : ℝ} (hx : Near L x r a) (hy : Near L y s b) (hr : |r + s| ≤ R)
    (hR : R + (a + b) ≤ 2 ^ 40) (hd : (a + b) + (R + (a + b) + 1) / 2 ^ 50 ≤ d) : Near L (PyFloat.add x y) (r + s) d := by
  have h : |L.val x + L.val y - (r + s)| ≤ a + b := by
    rw [show L.val x + L.val y - (r + s) = (L.val x - r) + (L.val y - s) by ring]
    exact (abs_add_le _ _).trans (add_le_add hx.2 hy.2)
  obtain ⟨h1, h2⟩ := round_step (L := L) h hr hR hd
  obtain ⟨h3, h4⟩ := L.add x y hx.1 hy.1 h1
  exact ⟨h3, by rw [h4]; exact h2⟩

theorem Near.sub {x y : F} {r s a b R d : ℝ} (hx : Near L x r a) (hy : Near L y s b) (hr : |r - s| ≤ R)
    (hR : R + (a + b) ≤ 2 ^ 40) (hd : (a + b) + (R + (a + b) + 1) / 2 ^ 50 ≤ d) : Near L (PyFloat.sub x y) (r - s) d := by
  have h : |L.val x - L.val y - (r - s)| ≤ a + b := by
    rw [show L.val x - L.val y - (r - s) = (L.val x - r) - (L.val y - s) by ring]
    exact (abs_sub _ _).trans (add_le_add hx.2 hy.2)
  obtain ⟨h1, h2⟩ := round_step (L := L) h hr hR hd
  obtain ⟨h3, h4⟩ := L.sub x y hx.1 hy.1 h1
  exact ⟨h3, by rw [h4]; exact h2⟩

theorem Near.mul {x y : F} {r s a b R S d : ℝ} (hx : Near L x r a) (hy : Near L y s b) (hr : |r| ≤ R) (hs : |s| ≤ S)
    (hR : R * S + (a * (S + b) + R * b) ≤ 2 ^ 40) (hd : (a * (S + b) + R * b) + (R * S + (a * (S + b) + R * b) + 1) / 2 ^ 50 ≤ d) :
    Near L (PyFloat.mul x y) (r * s) d := by
  have hy' : |L.val y| ≤ S + b := by
    have : L.val y = s + (L.val y - s) := by ring
    rw [this]; exact (abs_add_le _ _).trans (add_le_add hs hy.2)
  have h : |L.val x * L.val y - r * s| ≤ a * (S + b) + R * b := by
    rw [show L.val x * L.val y - r * s = (L.val x - r) * L.val y + r * (L.val y - s) by ring]
    refine (abs_add_le _ _).trans (add_le_add ?_ ?_)
    · rw [abs_mul]; exact mul_le_mul hx.2 hy' (abs_nonneg _) ((abs_nonneg _).trans hx.2)
    · rw [abs_mul]; exact mul_le_mul hr hy.2 (abs_nonneg _) ((abs_nonneg _).trans hr)
  have hrs : |r * s| ≤ R * S := by
    rw [abs_mul]; exact mul_le_mul hr hs (abs_nonneg _) ((abs_nonneg _).trans hr)
  obtain ⟨h1, h2⟩ := round_step (L := L) h hrs hR hd
  obtain ⟨h3, h4⟩ := L.mul x y hx.1 hy.1 h1
  exact ⟨h3, by rw [h4]; exact h2⟩

/-- Truncation of a number that is not close to an integer. -/
theorem Near.toInt {x : F} {r d : ℝ} {k : Int} (h : Near L x r d) (h0 : 0 ≤ k) (h1 : (k : ℝ) + d ≤ r) (h2 : r + d < k + 1) :
    PyFloat.toInt x = k := by
  obtain ⟨h3, h4⟩ := abs_le.1 h.2
  have hk : (0 : ℝ) ≤ k := by exact_mod_cast h0
  have e1 : (k : ℝ) ≤ L.val x := by linarith
  rw [L.toInt x h.1 (by linarith), Int.floor_eq_iff]
  exact ⟨e1, by linarith⟩

/-- Truncation in general. -/
theorem Near.toInt_near {x : F} {r d : ℝ} (h : Near L x r d) (h0 : d ≤ r) :
    r - d - 1 < (PyFloat.toInt x : ℝ) ∧ (PyFloat.toInt x : ℝ) ≤ r + d := by
  obtain ⟨h3, h4⟩ := abs_le.1 h.2
  rw [L.toInt x h.1 (by linarith)]
  have h5 := Int.floor_le (L.val x)
  have h6 := Int.lt_floor_add_one (L.val x)
  constructor <;> linarith

/-! ### Levels -/

theorem alt_feet (L : Rounded F) {type : Str} (ht : type = py! "A" ∨ type = py! "F") (n : Nat) (hn : n ≤ 9999) :
    |((altitudeToSi (F := F) type n : Int) : ℝ) - n * 100 * 0.3048| < 1 / 2 := by

  unfold altitudeToSi
  dsimp only
  rw [if_pos ht]
  have hn' : (n : ℝ) ≤ 9999 := by exact_mod_cast hn
  have hn0 : (0 : ℝ) ≤ n := by positivity
  have x1 : Near L (PyFloat.ofInt ((n : Int) * 100)) (((n : Int) * 100 : Int) : ℝ) (1 / 10 ^ 8) := by
    refine near_ofInt _ (R := 999900) ?_ (by norm_num) (by norm_num)
    push_cast
    rw [abs_of_nonneg (by positivity)]; linarith
  have x2 : Near L (Constants.feetToMeters : F) 0.3048 (1 / 10 ^ 14) :=
    near_dec 3048 4 (R := 1) (by norm_num) (by norm_num [abs_of_nonneg]) (by norm_num) (by norm_num)
  have x3 := x1.mul x2 (R := 999900) (S := 1) (d := 1 / 10 ^ 7)
    (by push_cast; rw [abs_of_nonneg (by positivity)]; linarith) (by norm_num [abs_of_nonneg]) (by norm_num) (by norm_num)
  have x4 : Near L (PyFloat.dec 5 1 : F) 0.5 (1 / 10 ^ 14) :=
    near_dec 5 1 (R := 1) (by norm_num) (by norm_num [abs_of_nonneg]) (by norm_num) (by norm_num)
  have x5 := x3.add x4 (R := 999901) (d := 1 / 10 ^ 6)
    (by push_cast; rw [abs_of_nonneg (by positivity)]; linarith) (by norm_num) (by norm_num)
  have key : ∃ k r : Int, (1524 * (n : Int) + 25) = 50 * k + r ∧ 1 ≤ r ∧ r ≤ 49 ∧ 0 ≤ k :=
    ⟨(1524 * (n : Int) + 25) / 50, (1524 * (n : Int) + 25) % 50, by omega, by omega, by omega, by omega⟩
  obtain ⟨k, r, h1, h2, h3, h4⟩ := key
  have h1' : (1524 * (n : ℝ) + 25) = 50 * k + r := by exact_mod_cast h1
  have h2' : (1 : ℝ) ≤ r := by exact_mod_cast h2
  have h3' : (r : ℝ) ≤ 49 := by exact_mod_cast h3
  rw [x5.toInt (k := k) h4 (by push_cast; linarith) (by push_cast; linarith)]
  rw [abs_lt]
  constructor <;> linarith

theorem alt_metres (L : Rounded F) {type : Str} (ht : type = py! "S" ∨ type = py! "M") (n : Nat) (hn : n ≤ 9999) :
    altitudeToSi (F := F) type n = n * 10 := by

  unfold altitudeToSi
  dsimp only
  rw [if_neg (by rcases ht with rfl | rfl <;> decide), if_pos ht]
  have hn' : (n : ℝ) ≤ 9999 := by exact_mod_cast hn
  have hn0 : (0 : ℝ) ≤ n := by positivity
  have x1 : Near L (PyFloat.ofInt ((n : Int) * 10)) (((n : Int) * 10 : Int) : ℝ) (1 / 10 ^ 8) := by
    refine near_ofInt _ (R := 999900) ?_ (by norm_num) (by norm_num)
    push_cast
    rw [abs_of_nonneg (by positivity)]; linarith
  have x4 : Near L (PyFloat.dec 5 1 : F) 0.5 (1 / 10 ^ 14) :=
    near_dec 5 1 (R := 1) (by norm_num) (by norm_num [abs_of_nonneg]) (by norm_num) (by norm_num)
  have x5 := x1.add x4 (R := 999901) (d := 1 / 10 ^ 6)
    (by push_cast; rw [abs_of_nonneg (by positivity)]; linarith) (by norm_num) (by norm_num)
  refine x5.toInt (by positivity) ?_ ?_
  · push_cast; linarith
  · push_cast; linarith

/-! ### Speeds -/

theorem speed_knots (L : Rounded F) (n : Nat) (hn : n ≤ 9999) (alt : Int) :
    |((speedToSi (F := F) (py! "N") n alt : Int) : ℝ) - n * 0.514444| < 1 / 2 := by

  unfold speedToSi
  dsimp only
  rw [if_neg (by decide), if_pos rfl]
  have hn' : (n : ℝ) ≤ 9999 := by exact_mod_cast hn
  have hn0 : (0 : ℝ) ≤ n := by positivity
  have x1 : Near L (PyFloat.ofInt (n : Int)) ((n : Int) : ℝ) (1 / 10 ^ 10) := by
    refine near_ofInt _ (R := 9999) ?_ (by norm_num) (by norm_num)
    push_cast
    rw [abs_of_nonneg (by positivity)]; linarith
  have x2 : Near L (Constants.knotsToMetersSecond : F) 0.514444 (1 / 10 ^ 14) :=
    near_dec 514444 6 (R := 1) (by norm_num) (by norm_num [abs_of_nonneg]) (by norm_num) (by norm_num)
  have x3 := x1.mul x2 (R := 9999) (S := 1) (d := 1 / 10 ^ 9)
    (by push_cast; rw [abs_of_nonneg (by positivity)]; linarith) (by norm_num [abs_of_nonneg]) (by norm_num) (by norm_num)
  have x4 : Near L (PyFloat.dec 5 1 : F) 0.5 (1 / 10 ^ 14) :=
    near_dec 5 1 (R := 1) (by norm_num) (by norm_num [abs_of_nonneg]) (by norm_num) (by norm_num)
  have x5 := x3.add x4 (R := 10000) (d := 1 / 10 ^ 8)
    (by push_cast; rw [abs_of_nonneg (by positivity)]; linarith) (by norm_num) (by norm_num)
  have key : ∃ k r : Int, (128611 * (n : Int) + 125000) = 250000 * k + r ∧ 1 ≤ r ∧ r ≤ 249999 ∧ 0 ≤ k :=
    ⟨(128611 * (n : Int) + 125000) / 250000, (128611 * (n : Int) + 125000) % 250000, by omega, by omega, by omega, by omega⟩
  obtain ⟨k, r, h1, h2, h3, h4⟩ := key
  have h1' : (128611 * (n : ℝ) + 125000) = 250000 * k + r := by exact_mod_cast h1
  have h2' : (1 : ℝ) ≤ r := by exact_mod_cast h2
  have h3' : (r : ℝ) ≤ 249999 := by exact_mod_cast h3
  rw [x5.toInt (k := k) h4 (by push_cast; linarith) (by push_cast; linarith)]
  rw [abs_lt]
  constructor <;> linarith

theorem kmh_odd (n k : Int) (h0 : 0 ≤ n) (h1 : n ≤ 9999) : 1388889 * n + 2500000 ≠ 5000000 * k := by
  intro e
  have hq : n + 6250022500000 = 5000000 * (2500009 * k - 694447 * n) := by linarith
  generalize 2500009 * k - 694447 * n = q at hq
  clear e
  have h2 : n = 5000000 * (q - 1250004) - 2500000 := by linarith
  generalize q - 1250004 = p at h2
  clear hq
  have h3 : 1 ≤ p := by by_contra hc; have : p ≤ 0 := Int.not_lt.1 hc; linarith
  linarith

theorem kmh_key (n : Nat) (hn : n ≤ 9999) :
    ∃ k r : Int, (1388889 * (n : Int) + 2500000) = 5000000 * k + r ∧ 1 ≤ r ∧ r ≤ 4999999 ∧ 0 ≤ k := by
  have h0 : (0 : Int) ≤ n := by positivity
  have h1 : (n : Int) ≤ 9999 := by exact_mod_cast hn
  have e := Int.mul_ediv_add_emod (1388889 * (n : Int) + 2500000) 5000000
  have e1 := Int.emod_nonneg (1388889 * (n : Int) + 2500000) (b := 5000000) (by norm_num)
  have e2 := Int.emod_lt_of_pos (1388889 * (n : Int) + 2500000) (b := 5000000) (by norm_num)
  have e3 := kmh_odd n ((1388889 * (n : Int) + 2500000) / 5000000) h0 h1
  have e4 : 0 ≤ (1388889 * (n : Int) + 2500000) / 5000000 := Int.ediv_nonneg (by linarith) (by norm_num)
  generalize (1388889 * (n : Int) + 2500000) / 5000000 = k at *
  generalize (1388889 * (n : Int) + 2500000) % 5000000 = r at *
  refine ⟨k, r, e.symm, ?_, Int.le_sub_one_of_lt e2, e4⟩
  rcases Int.lt_or_eq_of_le e1 with h | h
  · exact h
  · rw [← h, Int.add_zero] at e
    exact absurd e.symm e3

theorem speed_kmh (L : Rounded F) (n : Nat) (hn : n ≤ 9999) (alt : Int) :
    |((speedToSi (F := F) (py! "K") n alt : Int) : ℝ) - n * 0.2777778| < 1 / 2 := by

  unfold speedToSi
  dsimp only
  rw [if_pos rfl]
  have hn' : (n : ℝ) ≤ 9999 := by exact_mod_cast hn
  have hn0 : (0 : ℝ) ≤ n := by positivity
  have x1 : Near L (PyFloat.ofInt (n : Int)) ((n : Int) : ℝ) (1 / 10 ^ 10) := by
    refine near_ofInt _ (R := 9999) ?_ (by norm_num) (by norm_num)
    push_cast
    rw [abs_of_nonneg (by positivity)]; linarith
  have x2 : Near L (Constants.kmhToMetersSecond : F) 0.2777778 (1 / 10 ^ 14) :=
    near_dec 2777778 7 (R := 1) (by norm_num) (by norm_num [abs_of_nonneg]) (by norm_num) (by norm_num)
  have x3 := x1.mul x2 (R := 9999) (S := 1) (d := 1 / 10 ^ 9)
    (by push_cast; rw [abs_of_nonneg (by positivity)]; linarith) (by norm_num [abs_of_nonneg]) (by norm_num) (by norm_num)
  have x4 : Near L (PyFloat.dec 5 1 : F) 0.5 (1 / 10 ^ 14) :=
    near_dec 5 1 (R := 1) (by norm_num) (by norm_num [abs_of_nonneg]) (by norm_num) (by norm_num)
  have x5 := x3.add x4 (R := 10000) (d := 1 / 10 ^ 8)
    (by push_cast; rw [abs_of_nonneg (by positivity)]; linarith) (by norm_num) (by norm_num)
  have key := kmh_key n hn
  obtain ⟨k, r, h1, h2, h3, h4⟩ := key
  have h1' : (1388889 * (n : ℝ) + 2500000) = 5000000 * k + r := by exact_mod_cast h1
  have h2' : (1 : ℝ) ≤ r := by exact_mod_cast h2
  have h3' : (r : ℝ) ≤ 4999999 := by exact_mod_cast h3
  rw [x5.toInt (k := k) h4 (by push_cast; linarith) (by push_cast; linarith)]
  rw [abs_lt]
  constructor <;> linarith

end F15
