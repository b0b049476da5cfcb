import Verif.Lemmas.Near
/-!
# The speed of sound in rounded arithmetic
-/

namespace F15
open Spec

variable {F : Type} [PyFloat F] {L : Rounded F}

theorem Near.div {x y : F} {r s a b R m m' d : ℝ} (hx : Near L x r a) (hy : Near L y s b) (hr : |r| ≤ R) (hs : m ≤ s)
    (hm' : 0 < m') (hm : m' ≤ m - b) (h0 : 0 ≤ b) (hR : R / m + (a / m' + R * b / (m' * m)) ≤ 2 ^ 40)
    (hd : (a / m' + R * b / (m' * m)) + (R / m + (a / m' + R * b / (m' * m)) + 1) / 2 ^ 50 ≤ d) :
    Near L (PyFloat.div x y) (r / s) d ∧ 0 < L.val y ∧ |L.val x / L.val y| ≤ 2 ^ 40 := by
  obtain ⟨h1, h2⟩ := abs_le.1 hy.2
  have hmp : 0 < m := by linarith
  have hsp : 0 < s := by linarith
  have hyv : m' ≤ L.val y := by linarith
  have hyp : 0 < L.val y := by linarith
  have ha : 0 ≤ a := (abs_nonneg _).trans hx.2
  have hRp : 0 ≤ R := (abs_nonneg _).trans hr
  have h : |L.val x / L.val y - r / s| ≤ a / m' + R * b / (m' * m) := by
    have e : L.val x / L.val y - r / s = (L.val x - r) / L.val y - (r * (L.val y - s)) / (L.val y * s) := by
      field_simp; ring
    rw [e]
    refine (abs_sub _ _).trans (add_le_add ?_ ?_)
    · rw [abs_div, abs_of_pos hyp]
      exact div_le_div₀ ha hx.2 hm' hyv
    · rw [abs_div, abs_mul, abs_of_pos (mul_pos hyp hsp)]
      exact div_le_div₀ (mul_nonneg hRp h0) (mul_le_mul hr hy.2 (abs_nonneg _) hRp) (mul_pos hm' hmp)
        (mul_le_mul hyv hs hmp.le hyp.le)
  have hrs : |r / s| ≤ R / m := by
    rw [abs_div, abs_of_pos hsp]
    exact div_le_div₀ hRp hr hmp hs
  obtain ⟨h3, h4⟩ := round_step (L := L) h hrs hR hd
  obtain ⟨h5, h6⟩ := L.div x y hx.1 hy.1 hyp.ne' h3
  exact ⟨⟨h5, by rw [h6]; exact h4⟩, hyp, h3⟩

theorem Near.abs {x : F} {r a : ℝ} (hx : Near L x r a) : Near L (PyFloat.abs x) |r| a := by
  obtain ⟨h1, h2⟩ := L.abs x hx.1
  exact ⟨h1, by rw [h2]; exact (abs_abs_sub_abs_le _ _).trans hx.2⟩

theorem Near.sqrt {x : F} {r a R d : ℝ} (hx : Near L x r a) (hr : 1 / 4 ≤ r) (ha : a ≤ 1 / 4) (hR : Real.sqrt r ≤ R)
    (h40 : R + 2 * a ≤ 2 ^ 40) (hd : 2 * a + (R + 2 * a + 1) / 2 ^ 50 ≤ d) :
    Near L (PyFloat.sqrt x) (Real.sqrt r) d ∧ 0 ≤ L.val x ∧ |Real.sqrt (L.val x)| ≤ 2 ^ 40 := by
  obtain ⟨h1, h2⟩ := abs_le.1 hx.2
  have hv : 0 ≤ L.val x := by linarith
  have hs : 1 / 2 ≤ Real.sqrt r := by
    apply Real.le_sqrt_of_sq_le; linarith
  have h : |Real.sqrt (L.val x) - Real.sqrt r| ≤ 2 * a := by
    have e : (Real.sqrt (L.val x) - Real.sqrt r) * (Real.sqrt (L.val x) + Real.sqrt r) = L.val x - r := by
      have e1 := Real.mul_self_sqrt hv
      have e2 := Real.mul_self_sqrt (show (0 : ℝ) ≤ r by linarith)
      linarith
    have hp : 1 / 2 ≤ Real.sqrt (L.val x) + Real.sqrt r := by linarith [Real.sqrt_nonneg (L.val x)]
    have e' : |Real.sqrt (L.val x) - Real.sqrt r| * (Real.sqrt (L.val x) + Real.sqrt r) = |L.val x - r| := by
      rw [← e, abs_mul, abs_of_pos (a := Real.sqrt (L.val x) + Real.sqrt r) (by linarith)]
    have : |Real.sqrt (L.val x) - Real.sqrt r| * (1 / 2) ≤ a := by
      refine le_trans (mul_le_mul_of_nonneg_left hp (abs_nonneg _)) ?_
      rw [e']; exact hx.2
    linarith
  obtain ⟨h3, h4⟩ := round_step (L := L) h (by rw [abs_of_nonneg (Real.sqrt_nonneg _)]; exact hR) h40 hd
  obtain ⟨h5, h6⟩ := L.sqrt x hx.1 hv h3
  exact ⟨⟨h5, by rw [h6]; exact h4⟩, hv, h3⟩

/-! ### Steps of the calculation -/

/-- Temperature in degrees Celsius. -/
def tempF (F : Type) [PyFloat F] (a : Int) : F := PyFloat.add Constants.isaTemp (PyFloat.mul (PyFloat.ofInt a) Constants.tempLapseRateMeter)
/-- Ratio of the absolute temperatures. -/
def ratioF (F : Type) [PyFloat F] (a : Int) : F :=
  PyFloat.div (PyFloat.sub (tempF F a) Constants.kelvinZero) (PyFloat.abs Constants.kelvinZero)

theorem sound_eq (a : Int) : Utils.speedOfSoundAtAltitude (F := F) a =
    PyFloat.mul (PyFloat.dec 33115 2) (PyFloat.sqrt (ratioF F (if a > 11000 then 11000 else a))) := by
  unfold Utils.speedOfSoundAtAltitude ratioF tempF Constants.constantTempAltitude
  dsimp only
  split <;> rfl

section
variable (L)

/-- Everything about the calculation for an altitude between 0 and 11000. -/
structure SoundSteps (a : Int) : Prop where
  n : Near L (PyFloat.ofInt a) a (1 / 10 ^ 10)
  lapse : Near L (Constants.tempLapseRateMeter : F) (-0.00645) (1 / 10 ^ 14)
  p : Near L (PyFloat.mul (PyFloat.ofInt a) Constants.tempLapseRateMeter : F) (a * (-0.00645)) (1 / 10 ^ 9)
  isa : Near L (Constants.isaTemp : F) 15 (1 / 10 ^ 13)
  temp : Near L (tempF F a) (15 + a * (-0.00645)) (2 / 10 ^ 9)
  kz : Near L (Constants.kelvinZero : F) (-273.15) (1 / 10 ^ 12)
  diff : Near L (PyFloat.sub (tempF F a) Constants.kelvinZero) (15 + a * (-0.00645) - (-273.15)) (3 / 10 ^ 9)
  ratio : Near L (ratioF F a) ((15 + a * (-0.00645) - (-273.15)) / 273.15) (1 / 10 ^ 9)
  root : Near L (PyFloat.sqrt (ratioF F a)) (Real.sqrt ((15 + a * (-0.00645) - (-273.15)) / 273.15)) (3 / 10 ^ 9)
  fac : Near L (PyFloat.dec 33115 2 : F) 331.15 (1 / 10 ^ 12)
  sound : Near L (PyFloat.mul (PyFloat.dec 33115 2) (PyFloat.sqrt (ratioF F a)))
    (331.15 * Real.sqrt ((15 + a * (-0.00645) - (-273.15)) / 273.15)) (2 / 10 ^ 6)

theorem soundSteps {a : Int} (h0 : 0 ≤ a) (h1 : a ≤ 11000) : SoundSteps L a := by
  have h0' : (0 : ℝ) ≤ a := by exact_mod_cast h0
  have h1' : (a : ℝ) ≤ 11000 := by exact_mod_cast h1
  have n : Near L (PyFloat.ofInt a) a (1 / 10 ^ 10) :=
    near_ofInt _ (R := 11000) (by rw [abs_of_nonneg h0']; exact h1') (by norm_num) (by norm_num)
  have lapse : Near L (Constants.tempLapseRateMeter : F) (-0.00645) (1 / 10 ^ 14) :=
    near_dec (-645) 5 (R := 1) (by norm_num) (by rw [abs_le]; constructor <;> norm_num) (by norm_num) (by norm_num)
  have p : Near L (PyFloat.mul (PyFloat.ofInt a) Constants.tempLapseRateMeter : F) (a * (-0.00645)) (1 / 10 ^ 9) :=
    n.mul lapse (R := 11000) (S := 1) (by rw [abs_of_nonneg h0']; exact h1') (by rw [abs_le]; constructor <;> norm_num)
      (by norm_num) (by norm_num)
  have isa : Near L (Constants.isaTemp : F) 15 (1 / 10 ^ 13) :=
    near_dec 150 1 (R := 15) (by norm_num) (by norm_num [abs_of_nonneg]) (by norm_num) (by norm_num)
  have temp : Near L (tempF F a) (15 + a * (-0.00645)) (2 / 10 ^ 9) :=
    isa.add p (R := 60) (by rw [abs_le]; constructor <;> linarith) (by norm_num) (by norm_num)
  have kz : Near L (Constants.kelvinZero : F) (-273.15) (1 / 10 ^ 12) :=
    near_dec (-27315) 2 (R := 274) (by norm_num) (by rw [abs_le]; constructor <;> norm_num) (by norm_num) (by norm_num)
  have diff : Near L (PyFloat.sub (tempF F a) Constants.kelvinZero) (15 + a * (-0.00645) - (-273.15)) (3 / 10 ^ 9) :=
    temp.sub kz (R := 300) (by rw [abs_le]; constructor <;> linarith) (by norm_num) (by norm_num)
  have kabs : Near L (PyFloat.abs (Constants.kelvinZero : F)) 273.15 (1 / 10 ^ 12) := by
    have := kz.abs
    rwa [show |(-273.15 : ℝ)| = 273.15 by rw [abs_neg, abs_of_nonneg (by norm_num)]] at this
  have ratio := (diff.div kabs (R := 300) (m := 273) (m' := 272) (d := 1 / 10 ^ 9) (by rw [abs_le]; constructor <;> linarith)
    (by norm_num) (by norm_num) (by norm_num) (by norm_num) (by norm_num) (by norm_num)).1
  have rge : 1 / 4 ≤ (15 + (a : ℝ) * (-0.00645) - (-273.15)) / 273.15 := by
    rw [le_div_iff₀ (by norm_num)]; linarith
  have rle : Real.sqrt ((15 + (a : ℝ) * (-0.00645) - (-273.15)) / 273.15) ≤ 2 := by
    rw [Real.sqrt_le_left (by norm_num), div_le_iff₀ (by norm_num)]; linarith
  have root := (ratio.sqrt (R := 2) (d := 3 / 10 ^ 9) rge (by norm_num) rle (by norm_num) (by norm_num)).1
  have fac : Near L (PyFloat.dec 33115 2 : F) 331.15 (1 / 10 ^ 12) :=
    near_dec 33115 2 (R := 332) (by norm_num) (by norm_num [abs_of_nonneg]) (by norm_num) (by norm_num)
  refine ⟨n, lapse, p, isa, temp, kz, diff, ratio, root, fac, ?_⟩
  exact fac.mul root (R := 332) (S := 2) (by norm_num [abs_of_nonneg]) (by rw [abs_of_nonneg (Real.sqrt_nonneg _)]; exact rle)
    (by norm_num) (by norm_num)

/-- The calculated speed of sound is close to the exact one. -/
theorem near_sound {a : Int} (h0 : 0 ≤ a) : Near L (Utils.speedOfSoundAtAltitude (F := F) a) (soundSpeed a) (2 / 10 ^ 6) := by
  rw [sound_eq]
  have key : ∀ b : Int, 0 ≤ b → b ≤ 11000 → (min (a : ℝ) 11000) = b →
      Near L (PyFloat.mul (PyFloat.dec 33115 2) (PyFloat.sqrt (ratioF F b))) (soundSpeed a) (2 / 10 ^ 6) := by
    intro b hb0 hb1 hm
    have := (soundSteps L hb0 hb1).sound
    unfold soundSpeed
    rw [hm, show (273.15 + 15 - 0.00645 * (b : ℝ)) = 15 + (b : ℝ) * (-0.00645) - (-273.15) by ring]
    exact this
  split
  · rename_i h
    have : (11000 : ℝ) < a := by exact_mod_cast h
    exact key 11000 (by decide) (by decide) (by rw [min_eq_right this.le]; norm_num)
  · rename_i h
    have h : a ≤ 11000 := by omega
    have h' : (a : ℝ) ≤ 11000 := by exact_mod_cast h
    exact key a h0 h (min_eq_left h')

end

theorem soundSpeed_range {a : ℝ} (h0 : 0 ≤ a) : 290 ≤ soundSpeed a ∧ soundSpeed a ≤ 341 := by
  unfold soundSpeed
  have hm : min a 11000 ≤ 11000 := min_le_right _ _
  have hm0 : 0 ≤ min a 11000 := le_min h0 (by norm_num)
  constructor
  · have : (0.88 : ℝ) ≤ Real.sqrt ((273.15 + 15 - 0.00645 * min a 11000) / 273.15) := by
      apply Real.le_sqrt_of_sq_le
      rw [le_div_iff₀ (by norm_num)]; norm_num; linarith
    linarith
  · have : Real.sqrt ((273.15 + 15 - 0.00645 * min a 11000) / 273.15) ≤ 1.0275 := by
      rw [Real.sqrt_le_left (by norm_num), div_le_iff₀ (by norm_num)]; norm_num; linarith
    linarith

/-- The calculated Mach speed is close to the exact one. -/
theorem near_mach (L : Rounded F) (n : Nat) (hn : n ≤ 9999) {a : Int} (h0 : 0 ≤ a) :
    Near L (Utils.machToMsSpeed (F := F) n a) (n / 100 * (if a = 0 then 343 else soundSpeed a)) (3 / 10 ^ 4) := by
  have hn' : (n : ℝ) ≤ 9999 := by exact_mod_cast hn
  have hn0 : (0 : ℝ) ≤ n := by positivity
  have x1 : Near L (PyFloat.ofInt (n : Int)) (n : ℝ) (1 / 10 ^ 10) := by
    have := near_ofInt (L := L) (n : Int) (R := 9999) (d := 1 / 10 ^ 10) (by push_cast; rw [abs_of_nonneg hn0]; exact hn') (by norm_num) (by norm_num)
    simpa using this
  have x2 : Near L (PyFloat.ofInt 100 : F) 100 (1 / 10 ^ 12) := by
    have := near_ofInt (L := L) 100 (R := 100) (d := 1 / 10 ^ 12) (by norm_num [abs_of_nonneg]) (by norm_num) (by norm_num)
    simpa using this
  have x3 := (x1.div x2 (R := 9999) (m := 100) (m' := 99) (d := 1 / 10 ^ 9) (by rw [abs_of_nonneg hn0]; exact hn') (by norm_num)
    (by norm_num) (by norm_num) (by norm_num) (by norm_num) (by norm_num)).1
  have hq : |(n : ℝ) / 100| ≤ 100 := by
    rw [abs_of_nonneg (by positivity)]; linarith
  unfold Utils.machToMsSpeed
  split
  · have x4 : Near L (Constants.machToMetersSecond : F) 343 (1 / 10 ^ 12) :=
      near_dec 3430 1 (R := 343) (by norm_num) (by norm_num [abs_of_nonneg]) (by norm_num) (by norm_num)
    exact x3.mul x4 (R := 100) (S := 343) hq (by norm_num [abs_of_nonneg]) (by norm_num) (by norm_num)
  · have h := soundSpeed_range (a := a) (by exact_mod_cast h0)
    exact x3.mul (near_sound L h0) (R := 100) (S := 341) hq (by rw [abs_le]; constructor <;> linarith) (by norm_num) (by norm_num)

theorem speed_mach (L : Rounded F) (n : Nat) (hn : n ≤ 9999) {a : Int} (h0 : 0 ≤ a) :
    |((speedToSi (F := F) (py! "M") n a : Int) : ℝ) - n / 100 * (if a = 0 then 343 else soundSpeed a)| ≤ 1 / 2 + 1 / 1000 := by
  unfold speedToSi
  dsimp only
  rw [if_neg (by decide), if_neg (by decide), if_pos rfl]
  have hn' : (n : ℝ) ≤ 9999 := by exact_mod_cast hn
  have hn0 : (0 : ℝ) ≤ n := by positivity
  have h := soundSpeed_range (a := a) (by exact_mod_cast h0)
  have hc : 0 ≤ (if a = 0 then 343 else soundSpeed a : ℝ) ∧ (if a = 0 then 343 else soundSpeed a : ℝ) ≤ 343 := by
    split
    · norm_num
    · constructor <;> linarith
  have x1 := near_mach L n hn h0
  have hv0 : 0 ≤ (n : ℝ) / 100 * (if a = 0 then 343 else soundSpeed a) := mul_nonneg (by positivity) hc.1
  have hv1 : (n : ℝ) / 100 * (if a = 0 then 343 else soundSpeed a) ≤ 100 * 343 :=
    mul_le_mul (by linarith) hc.2 hc.1 (by norm_num)
  generalize (n : ℝ) / 100 * (if a = 0 then 343 else soundSpeed a) = v at *
  have x4 : Near L (PyFloat.dec 5 1 : F) 0.5 (1 / 10 ^ 14) :=
    near_dec 5 1 (R := 1) (by norm_num) (by norm_num [abs_of_nonneg]) (by norm_num) (by norm_num)
  have x5 := x1.add x4 (R := 35000) (d := 4 / 10 ^ 4) (by rw [abs_of_nonneg (by linarith)]; linarith) (by norm_num) (by norm_num)
  obtain ⟨h1, h2⟩ := x5.toInt_near (by linarith)
  rw [abs_le]
  constructor <;> linarith

end F15
