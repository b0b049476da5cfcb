import Mathlib.Data.Int.Log
import Mathlib.Tactic.Positivity
import Mathlib.Tactic.Ring
import Mathlib.Tactic.FieldSimp
import Verif.Spec.Float
/-!
# Arithmetics that satisfy `Rounded`

`Double` is IEEE 754 double precision arithmetic with round-half-to-even, gradual underflow (`2^-1074`) and no overflow
(the laws of `Rounded` are only about results up to `2^40`). `Exact` is exact real arithmetic. Both show that the laws
assumed in the numeric properties can be met; the first shows that they describe floats.

The functions no law is about (`fmt2`, `direct`, `inverse`) are given arbitrary values here.
-/

namespace F15.Spec

/-- The nearest integer; the even one of two. -/
noncomputable def nearest (t : ℝ) : Int :=
  if t - ⌊t⌋ < 1 / 2 then ⌊t⌋ else if 1 / 2 < t - ⌊t⌋ then ⌊t⌋ + 1 else if Even ⌊t⌋ then ⌊t⌋ else ⌊t⌋ + 1

theorem nearest_floor (t : ℝ) : ⌊t⌋ ≤ nearest t ∧ nearest t ≤ ⌊t⌋ + 1 := by
  unfold nearest; split_ifs <;> constructor <;> omega

theorem nearest_near (t : ℝ) : |(nearest t : ℝ) - t| ≤ 1 / 2 := by
  unfold nearest
  have h1 := Int.floor_le t
  have h2 := Int.lt_floor_add_one t
  split_ifs <;> rw [abs_le] <;> push_cast <;> constructor <;> linarith

theorem nearest_int (k : Int) : nearest k = k := by
  unfold nearest; simp

theorem nearest_mono {s t : ℝ} (h : s ≤ t) : nearest s ≤ nearest t := by
  have hf := Int.floor_le_floor h
  rcases lt_or_eq_of_le hf with hlt | heq
  · have := (nearest_floor s).2
    have := (nearest_floor t).1
    omega
  · unfold nearest
    rw [heq]
    have h' : s - (⌊t⌋ : ℝ) ≤ t - ⌊t⌋ := by linarith
    split_ifs <;> first | omega | (exfalso; linarith)

/-- The exponent of a positive number: normal numbers, or that of the subnormal numbers. -/
noncomputable def expo (x : ℝ) : Int := max (Int.log 2 x) (-1022)

/-- The distance of neighbouring numbers with an exponent: 53 bits. -/
noncomputable def ulp (e : Int) : ℝ := (2 : ℝ) ^ (e - 52)

theorem ulp_pos (e : Int) : 0 < ulp e := by unfold ulp; exact zpow_pos (by norm_num) _

/-- Rounding of a non-negative number. -/
noncomputable def roundPos (x : ℝ) : ℝ := nearest (x / ulp (expo x)) * ulp (expo x)

/-- Rounding to double precision. -/
noncomputable def roundDouble (x : ℝ) : ℝ := if 0 ≤ x then roundPos x else - roundPos (-x)

theorem roundPos_zero : roundPos 0 = 0 := by
  have := nearest_int 0
  unfold roundPos
  simp only [zero_div]
  rw [show (0 : ℝ) = ((0 : Int) : ℝ) by simp, this]; simp

theorem roundPos_nonneg {x : ℝ} (h : 0 ≤ x) : 0 ≤ roundPos x := by
  unfold roundPos
  refine mul_nonneg ?_ (ulp_pos _).le
  have h1 := (nearest_floor (x / ulp (expo x))).1
  have h2 : 0 ≤ ⌊x / ulp (expo x)⌋ := Int.floor_nonneg.2 (div_nonneg h (ulp_pos _).le)
  exact_mod_cast h2.trans h1

theorem two_pow_le {a b : Int} (h : a ≤ b) : (2 : ℝ) ^ a ≤ 2 ^ b := zpow_le_zpow_right₀ (by norm_num) h

theorem roundPos_near {x : ℝ} (h : 0 ≤ x) : |roundPos x - x| ≤ (x + 1) / 2 ^ 50 := by
  have hu := ulp_pos (expo x)
  have h1 := nearest_near (x / ulp (expo x))
  have h2 : roundPos x - x = ((nearest (x / ulp (expo x)) : ℝ) - x / ulp (expo x)) * ulp (expo x) := by
    unfold roundPos; field_simp
  have h3 : |roundPos x - x| ≤ 1 / 2 * ulp (expo x) := by
    rw [h2, abs_mul, abs_of_pos hu]
    exact mul_le_mul_of_nonneg_right h1 hu.le
  have h4 : ulp (expo x) ≤ (x + 1) / 2 ^ 50 := by
    have h5 : (2 : ℝ) ^ (expo x) ≤ x + 1 := by
      unfold expo
      rcases le_total (Int.log 2 x) (-1022) with hc | hc
      · rw [max_eq_right hc]
        have : (2 : ℝ) ^ (-1022 : Int) ≤ 2 ^ (0 : Int) := two_pow_le (by norm_num)
        rw [zpow_zero] at this
        linarith
      · rw [max_eq_left hc]
        rcases h.lt_or_eq with hp | hz
        · have := Int.zpow_log_le_self (R := ℝ) (b := 2) (by norm_num) hp
          push_cast at this
          linarith
        · subst hz; simp
    have h6 : ulp (expo x) = (2 : ℝ) ^ (expo x) / 2 ^ 52 := by
      unfold ulp
      rw [zpow_sub₀ (by norm_num)]; norm_cast
    rw [h6, div_le_div_iff₀ (by positivity) (by positivity)]
    nlinarith [h5, h]
  have : 1 / 2 * ulp (expo x) ≤ ulp (expo x) := by linarith
  exact h3.trans (this.trans h4)

theorem nearest_le {t : ℝ} {k : Int} (h : t ≤ k) : nearest t ≤ k := by
  have := nearest_mono h
  rwa [nearest_int] at this

theorem le_nearest {t : ℝ} {k : Int} (h : (k : ℝ) ≤ t) : k ≤ nearest t := by
  have := nearest_mono h
  rwa [nearest_int] at this

theorem roundPos_mono {x y : ℝ} (h0 : 0 ≤ x) (h : x ≤ y) : roundPos x ≤ roundPos y := by
  rcases h0.lt_or_eq with hp | hz
  · have hlog : Int.log 2 x ≤ Int.log 2 y := Int.log_mono_right hp h
    have hexp : expo x ≤ expo y := max_le_max_right _ hlog
    rcases hexp.lt_or_eq with hlt | heq
    · -- a power of two lies between
      have hy : expo y = Int.log 2 y := by
        unfold expo at hlt ⊢
        omega
      have h1 : roundPos x ≤ 2 ^ (expo x + 1) := by
        have hx : x < (2 : ℝ) ^ (expo x + 1) := by
          have := Int.lt_zpow_succ_log_self (R := ℝ) (b := 2) (by norm_num) x
          push_cast at this
          refine this.trans_le (two_pow_le ?_)
          unfold expo; omega
        have hu := ulp_pos (expo x)
        have e53 : (2 : ℝ) ^ (expo x + 1) = ((2 ^ 53 : Int) : ℝ) * ulp (expo x) := by
          unfold ulp
          rw [show ((2 ^ 53 : Int) : ℝ) = (2 : ℝ) ^ (53 : Int) by norm_cast, ← zpow_add₀ (by norm_num)]
          congr 1; ring
        rw [e53]
        unfold roundPos
        refine mul_le_mul_of_nonneg_right ?_ hu.le
        have : nearest (x / ulp (expo x)) ≤ (2 ^ 53 : Int) := nearest_le (by
          rw [div_le_iff₀ hu, ← e53]; exact hx.le)
        exact_mod_cast this
      have h2 : (2 : ℝ) ^ (expo y) ≤ roundPos y := by
        have hx : (2 : ℝ) ^ (expo y) ≤ y := by
          have := Int.zpow_log_le_self (R := ℝ) (b := 2) (by norm_num) (hp.trans_le h)
          push_cast at this
          rw [hy]; exact this
        have hu := ulp_pos (expo y)
        have e52 : (2 : ℝ) ^ (expo y) = ((2 ^ 52 : Int) : ℝ) * ulp (expo y) := by
          unfold ulp
          rw [show ((2 ^ 52 : Int) : ℝ) = (2 : ℝ) ^ (52 : Int) by norm_cast, ← zpow_add₀ (by norm_num)]
          congr 1; ring
        rw [e52]
        unfold roundPos
        refine mul_le_mul_of_nonneg_right ?_ hu.le
        have : (2 ^ 52 : Int) ≤ nearest (y / ulp (expo y)) := le_nearest (by
          rw [le_div_iff₀ hu, ← e52]; exact hx)
        exact_mod_cast this
      exact h1.trans ((two_pow_le (by omega)).trans h2)
    · unfold roundPos
      rw [heq]
      have hu := ulp_pos (expo y)
      refine mul_le_mul_of_nonneg_right ?_ hu.le
      exact_mod_cast nearest_mono (div_le_div_of_nonneg_right h hu.le)
  · subst hz
    rw [roundPos_zero]
    exact roundPos_nonneg h

theorem roundDouble_near (x : ℝ) : |roundDouble x - x| ≤ (|x| + 1) / 2 ^ 50 := by
  unfold roundDouble
  split
  · rename_i h
    rw [abs_of_nonneg h]; exact roundPos_near h
  · rename_i h
    have h' : 0 ≤ -x := by linarith [not_le.1 h]
    have := roundPos_near h'
    rw [← abs_neg] at this
    rw [abs_of_neg (not_le.1 h)]
    rwa [show -(roundPos (-x) - -x) = -roundPos (-x) - x by ring] at this

theorem roundDouble_mono {x y : ℝ} (h : x ≤ y) : roundDouble x ≤ roundDouble y := by
  unfold roundDouble
  split_ifs with h1 h2 h2
  · exact roundPos_mono h1 h
  · exfalso; linarith
  · have a := roundPos_nonneg h2
    have b := roundPos_nonneg (x := -x) (by linarith [not_le.1 h1])
    linarith
  · have := roundPos_mono (x := -y) (y := -x) (by linarith [not_le.1 h2]) (by linarith)
    linarith

theorem roundPos_whole (n : Nat) (h1 : 1 ≤ n) (h : (n : ℝ) ≤ 2 ^ 40) : roundPos n = n := by
  have hlog : 0 ≤ Int.log 2 (n : ℝ) ∧ Int.log 2 (n : ℝ) ≤ 40 := by
    rw [Int.log_natCast]
    refine ⟨by positivity, ?_⟩
    have h' : n ≤ 2 ^ 40 := by exact_mod_cast h
    have := Nat.log_mono_right (b := 2) h'
    rw [Nat.log_pow (by norm_num)] at this
    exact_mod_cast this
  have he : expo n = Int.log 2 (n : ℝ) := by unfold expo; omega
  have hu := ulp_pos (expo n)
  have hk : ∃ k : Int, (n : ℝ) / ulp (expo n) = k := by
    refine ⟨n * 2 ^ (52 - expo n).toNat, ?_⟩
    rw [div_eq_iff hu.ne']
    push_cast
    unfold ulp
    rw [mul_assoc, ← zpow_natCast, ← zpow_add₀ (by norm_num)]
    have : (((52 - expo n).toNat : Int)) + (expo n - 52) = 0 := by omega
    rw [this]; simp
  obtain ⟨k, hk⟩ := hk
  unfold roundPos
  rw [hk, nearest_int, ← hk]
  field_simp

theorem roundDouble_whole (n : Int) (h : |(n : ℝ)| ≤ 2 ^ 40) : roundDouble n = n := by
  unfold roundDouble
  split
  · rename_i h0
    have h0' : 0 ≤ n := by exact_mod_cast h0
    obtain ⟨k, rfl⟩ := Int.eq_ofNat_of_zero_le h0'
    rcases Nat.eq_zero_or_pos k with rfl | hk
    · simpa using roundPos_zero
    · rw [abs_of_nonneg h0] at h
      have := roundPos_whole k hk (by simpa using h)
      simpa using this
  · rename_i h0
    have h0 := not_le.1 h0
    have h0' : n < 0 := by exact_mod_cast h0
    obtain ⟨k, hk⟩ := Int.eq_ofNat_of_zero_le (a := -n) (by omega)
    have hr : -(n : ℝ) = (k : ℝ) := by
      have : ((-n : Int) : ℝ) = ((k : Int) : ℝ) := by rw [hk]
      push_cast at this; exact this
    rw [abs_of_neg h0, hr] at h
    rw [hr, roundPos_whole k (by omega) h, ← hr]; ring

/-- Truncation towards zero. -/
noncomputable def trunc (x : ℝ) : Int := if 0 ≤ x then ⌊x⌋ else ⌈x⌉

/-- Double precision numbers, as the real numbers they stand for. -/
structure Double where
  real : ℝ

noncomputable instance : PyFloat Double where
  dec m e := ⟨roundDouble ((m : ℝ) / 10 ^ e)⟩
  ofInt n := ⟨roundDouble n⟩
  add a b := ⟨roundDouble (a.real + b.real)⟩
  sub a b := ⟨roundDouble (a.real - b.real)⟩
  mul a b := ⟨roundDouble (a.real * b.real)⟩
  div a b := ⟨roundDouble (a.real / b.real)⟩
  abs a := ⟨|a.real|⟩
  sqrt a := ⟨roundDouble (Real.sqrt a.real)⟩
  toInt a := trunc a.real
  fmt2 _ := []
  direct a b _ _ := (a, b)
  inverse a b _ _ := (a, b)

/-- Double precision arithmetic obeys the laws. -/
noncomputable def Rounded.double : Rounded Double where
  fin _ := True
  val := Double.real
  rnd := roundDouble
  near x _ := roundDouble_near x
  mono _ _ _ _ h := roundDouble_mono h
  whole n h := roundDouble_whole n h
  dec _ _ _ := ⟨trivial, rfl⟩
  ofInt _ _ := ⟨trivial, rfl⟩
  add _ _ _ _ _ := ⟨trivial, rfl⟩
  sub _ _ _ _ _ := ⟨trivial, rfl⟩
  mul _ _ _ _ _ := ⟨trivial, rfl⟩
  div _ _ _ _ _ _ := ⟨trivial, rfl⟩
  abs _ _ := ⟨trivial, rfl⟩
  sqrt _ _ _ _ := ⟨trivial, rfl⟩
  toInt _ _ h := if_pos h

/-- Exact real arithmetic. -/
structure Exact where
  real : ℝ

noncomputable instance : PyFloat Exact where
  dec m e := ⟨(m : ℝ) / 10 ^ e⟩
  ofInt n := ⟨n⟩
  add a b := ⟨a.real + b.real⟩
  sub a b := ⟨a.real - b.real⟩
  mul a b := ⟨a.real * b.real⟩
  div a b := ⟨a.real / b.real⟩
  abs a := ⟨|a.real|⟩
  sqrt a := ⟨Real.sqrt a.real⟩
  toInt a := trunc a.real
  fmt2 _ := []
  direct a b _ _ := (a, b)
  inverse a b _ _ := (a, b)

/-- Exact arithmetic obeys the laws. -/
noncomputable def Rounded.exact : Rounded Exact where
  fin _ := True
  val := Exact.real
  rnd := id
  near x _ := by simp only [id, sub_self, abs_zero]; positivity
  mono _ _ _ _ h := h
  whole _ _ := rfl
  dec _ _ _ := ⟨trivial, rfl⟩
  ofInt _ _ := ⟨trivial, rfl⟩
  add _ _ _ _ _ := ⟨trivial, rfl⟩
  sub _ _ _ _ _ := ⟨trivial, rfl⟩
  mul _ _ _ _ _ := ⟨trivial, rfl⟩
  div _ _ _ _ _ _ := ⟨trivial, rfl⟩
  abs _ _ := ⟨trivial, rfl⟩
  sqrt _ _ _ _ := ⟨trivial, rfl⟩
  toInt _ _ h := if_pos h

end F15.Spec
