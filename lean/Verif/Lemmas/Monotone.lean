import Verif.Lemmas.Sound
/-!
# The speed of sound and Mach speeds are monotone in rounded arithmetic
-/

namespace F15
open Spec

variable {F : Type} [PyFloat F] {L : Rounded F}

theorem Near.bound {x : F} {r d R B : ℝ} (h : Near L x r d) (hr : |r| ≤ R) (hB : R + d ≤ B) : |L.val x| ≤ B := by
  have : L.val x = r + (L.val x - r) := by ring
  rw [this]
  exact ((abs_add_le _ _).trans (add_le_add hr h.2)).trans hB

theorem mul_bound {x y B C : ℝ} (hx : |x| ≤ B) (hy : |y| ≤ C) (h : B * C ≤ 2 ^ 40) : |x * y| ≤ 2 ^ 40 := by
  rw [abs_mul]
  exact (mul_le_mul hx hy (abs_nonneg _) ((abs_nonneg _).trans hx)).trans h

theorem add_bound {x y B C : ℝ} (hx : |x| ≤ B) (hy : |y| ≤ C) (h : B + C ≤ 2 ^ 40) : |x + y| ≤ 2 ^ 40 :=
  ((abs_add_le _ _).trans (add_le_add hx hy)).trans h

theorem sub_bound {x y B C : ℝ} (hx : |x| ≤ B) (hy : |y| ≤ C) (h : B + C ≤ 2 ^ 40) : |x - y| ≤ 2 ^ 40 :=
  ((abs_sub _ _).trans (add_le_add hx hy)).trans h

/-- The speed of sound does not increase with the altitude, below 11000 m. -/
theorem sound_antitone_low (L : Rounded F) {a b : Int} (h0 : 0 ≤ a) (hab : a ≤ b) (h1 : b ≤ 11000) :
    L.val (PyFloat.mul (PyFloat.dec 33115 2) (PyFloat.sqrt (ratioF F b))) ≤
      L.val (PyFloat.mul (PyFloat.dec 33115 2) (PyFloat.sqrt (ratioF F a))) := by
  have A := soundSteps L h0 (hab.trans h1)
  have B := soundSteps L (h0.trans hab) h1
  have a0 : (0 : ℝ) ≤ a := by exact_mod_cast h0
  have ab : (a : ℝ) ≤ b := by exact_mod_cast hab
  have b1 : (b : ℝ) ≤ 11000 := by exact_mod_cast h1
  -- int → float
  have na : |(a : ℝ)| ≤ 11000 := by rw [abs_of_nonneg a0]; linarith
  have nb : |(b : ℝ)| ≤ 11000 := by rw [abs_of_nonneg (by linarith)]; linarith
  have s1 : L.val (PyFloat.ofInt a) ≤ L.val (PyFloat.ofInt b) := by
    rw [(L.ofInt a (na.trans (by norm_num))).2, (L.ofInt b (nb.trans (by norm_num))).2]
    exact L.mono _ _ (na.trans (by norm_num)) (nb.trans (by norm_num)) ab
  have va := A.n.bound na (B := 11001) (by norm_num)
  have vb := B.n.bound nb (B := 11001) (by norm_num)
  -- times the negative lapse rate
  have vl := A.lapse.bound (R := 1) (B := 2) (by rw [abs_le]; constructor <;> norm_num) (by norm_num)
  have ln : L.val (Constants.tempLapseRateMeter : F) ≤ 0 := by
    have := (abs_le.1 A.lapse.2).2
    norm_num at this; linarith
  have m1 := mul_bound va vl (by norm_num)
  have m2 := mul_bound vb vl (by norm_num)
  have s2 : L.val (PyFloat.mul (PyFloat.ofInt b) (Constants.tempLapseRateMeter : F)) ≤
      L.val (PyFloat.mul (PyFloat.ofInt a) (Constants.tempLapseRateMeter : F)) := by
    rw [(L.mul _ _ A.n.1 A.lapse.1 m1).2, (L.mul _ _ B.n.1 B.lapse.1 m2).2]
    exact L.mono _ _ m2 m1 (mul_le_mul_of_nonpos_right s1 ln)
  -- plus the temperature on the ground
  have ra : |(a : ℝ) * (-0.00645)| ≤ 100 := by rw [abs_le]; constructor <;> linarith
  have rb : |(b : ℝ) * (-0.00645)| ≤ 100 := by rw [abs_le]; constructor <;> linarith
  have pa := A.p.bound ra (B := 101) (by norm_num)
  have pb := B.p.bound rb (B := 101) (by norm_num)
  have vi := A.isa.bound (R := 15) (B := 16) (by norm_num [abs_of_nonneg]) (by norm_num)
  have m3 := add_bound vi pa (by norm_num)
  have m4 := add_bound vi pb (by norm_num)
  have s3 : L.val (tempF F b) ≤ L.val (tempF F a) := by
    unfold tempF
    rw [(L.add _ _ A.isa.1 A.p.1 m3).2, (L.add _ _ B.isa.1 B.p.1 m4).2]
    exact L.mono _ _ m4 m3 (by linarith)
  -- minus absolute zero
  have ta := A.temp.bound (R := 100) (B := 101) (by rw [abs_le]; constructor <;> linarith) (by norm_num)
  have tb := B.temp.bound (R := 100) (B := 101) (by rw [abs_le]; constructor <;> linarith) (by norm_num)
  have vk := A.kz.bound (R := 274) (B := 275) (by rw [abs_le]; constructor <;> norm_num) (by norm_num)
  have m5 := sub_bound ta vk (by norm_num)
  have m6 := sub_bound tb vk (by norm_num)
  have s4 : L.val (PyFloat.sub (tempF F b) Constants.kelvinZero) ≤ L.val (PyFloat.sub (tempF F a) Constants.kelvinZero) := by
    rw [(L.sub _ _ A.temp.1 A.kz.1 m5).2, (L.sub _ _ B.temp.1 B.kz.1 m6).2]
    exact L.mono _ _ m6 m5 (by linarith)
  -- divided by absolute zero
  have kabs : Near L (PyFloat.abs (Constants.kelvinZero : F)) 273.15 (1 / 10 ^ 12) := by
    have := A.kz.abs
    rwa [show |(-273.15 : ℝ)| = 273.15 by rw [abs_neg, abs_of_nonneg (by norm_num)]] at this
  obtain ⟨_, kp, m7⟩ := A.diff.div kabs (R := 300) (m := 273) (m' := 272) (d := 1 / 10 ^ 9) (by rw [abs_le]; constructor <;> linarith)
    (by norm_num) (by norm_num) (by norm_num) (by norm_num) (by norm_num) (by norm_num)
  obtain ⟨_, _, m8⟩ := B.diff.div kabs (R := 300) (m := 273) (m' := 272) (d := 1 / 10 ^ 9) (by rw [abs_le]; constructor <;> linarith)
    (by norm_num) (by norm_num) (by norm_num) (by norm_num) (by norm_num) (by norm_num)
  have s5 : L.val (ratioF F b) ≤ L.val (ratioF F a) := by
    unfold ratioF
    rw [(L.div _ _ A.diff.1 kabs.1 kp.ne' m7).2, (L.div _ _ B.diff.1 kabs.1 kp.ne' m8).2]
    exact L.mono _ _ m8 m7 (div_le_div_of_nonneg_right s4 kp.le)
  -- root
  have rge : ∀ c : ℝ, 0 ≤ c → c ≤ 11000 → 1 / 4 ≤ (15 + c * (-0.00645) - (-273.15)) / 273.15 ∧
      Real.sqrt ((15 + c * (-0.00645) - (-273.15)) / 273.15) ≤ 2 := by
    intro c c0 c1
    constructor
    · rw [le_div_iff₀ (by norm_num)]; linarith
    · rw [Real.sqrt_le_left (by norm_num), div_le_iff₀ (by norm_num)]; linarith
  obtain ⟨r1, r2⟩ := rge a a0 (by linarith)
  obtain ⟨r3, r4⟩ := rge b (by linarith) b1
  obtain ⟨_, p1, m9⟩ := A.ratio.sqrt (R := 2) (d := 3 / 10 ^ 9) r1 (by norm_num) r2 (by norm_num) (by norm_num)
  obtain ⟨_, p2, m10⟩ := B.ratio.sqrt (R := 2) (d := 3 / 10 ^ 9) r3 (by norm_num) r4 (by norm_num) (by norm_num)
  have s6 : L.val (PyFloat.sqrt (ratioF F b)) ≤ L.val (PyFloat.sqrt (ratioF F a)) := by
    rw [(L.sqrt _ A.ratio.1 p1 m9).2, (L.sqrt _ B.ratio.1 p2 m10).2]
    exact L.mono _ _ m10 m9 (Real.sqrt_le_sqrt s5)
  -- factor
  have qa := A.root.bound (R := 2) (B := 3) (by rw [abs_of_nonneg (Real.sqrt_nonneg _)]; exact r2) (by norm_num)
  have qb := B.root.bound (R := 2) (B := 3) (by rw [abs_of_nonneg (Real.sqrt_nonneg _)]; exact r4) (by norm_num)
  have vf := A.fac.bound (R := 332) (B := 333) (by norm_num [abs_of_nonneg]) (by norm_num)
  have fp : 0 ≤ L.val (PyFloat.dec 33115 2 : F) := by
    have := (abs_le.1 A.fac.2).1
    norm_num at this; linarith
  have m11 := mul_bound vf qa (by norm_num)
  have m12 := mul_bound vf qb (by norm_num)
  rw [(L.mul _ _ A.fac.1 A.root.1 m11).2, (L.mul _ _ B.fac.1 B.root.1 m12).2]
  exact L.mono _ _ m12 m11 (mul_le_mul_of_nonneg_left s6 fp)

/-- The speed of sound does not increase with the altitude. -/
theorem sound_antitone (L : Rounded F) {a b : Int} (h0 : 0 ≤ a) (hab : a ≤ b) :
    L.val (Utils.speedOfSoundAtAltitude (F := F) b) ≤ L.val (Utils.speedOfSoundAtAltitude (F := F) a) := by
  rw [sound_eq, sound_eq]
  refine sound_antitone_low L ?_ ?_ ?_
  · split <;> omega
  · split <;> split <;> omega
  · split <;> omega

/-- The number `n / 100` as calculated. -/
theorem near_hundredth (L : Rounded F) (n : Nat) (hn : n ≤ 9999) :
    Near L (PyFloat.div (PyFloat.ofInt (n : Int)) (PyFloat.ofInt 100)) ((n : ℝ) / 100) (1 / 10 ^ 9) ∧
    Near L (PyFloat.ofInt (n : Int)) (n : ℝ) (1 / 10 ^ 10) ∧ 0 < L.val (PyFloat.ofInt 100 : F) ∧ L.fin (PyFloat.ofInt 100 : F) ∧
    |L.val (PyFloat.ofInt (n : Int)) / L.val (PyFloat.ofInt 100 : F)| ≤ 2 ^ 40 := by
  have hn' : (n : ℝ) ≤ 9999 := by exact_mod_cast hn
  have hn0 : (0 : ℝ) ≤ n := by positivity
  have x1 : Near L (PyFloat.ofInt (n : Int)) (n : ℝ) (1 / 10 ^ 10) := by
    have := near_ofInt (L := L) (n : Int) (R := 9999) (d := 1 / 10 ^ 10) (by push_cast; rw [abs_of_nonneg hn0]; exact hn') (by norm_num) (by norm_num)
    simpa using this
  have x2 : Near L (PyFloat.ofInt 100 : F) 100 (1 / 10 ^ 12) := by
    have := near_ofInt (L := L) 100 (R := 100) (d := 1 / 10 ^ 12) (by norm_num [abs_of_nonneg]) (by norm_num) (by norm_num)
    simpa using this
  obtain ⟨x3, x4, x5⟩ := x1.div x2 (R := 9999) (m := 100) (m' := 99) (d := 1 / 10 ^ 9) (by rw [abs_of_nonneg hn0]; exact hn') (by norm_num)
    (by norm_num) (by norm_num) (by norm_num) (by norm_num) (by norm_num)
  exact ⟨x3, x1, x4, x2.1, x5⟩

theorem hundredth_mono (L : Rounded F) {n m : Nat} (hnm : n ≤ m) (hm : m ≤ 9999) :
    L.val (PyFloat.div (PyFloat.ofInt (n : Int)) (PyFloat.ofInt 100) : F) ≤
      L.val (PyFloat.div (PyFloat.ofInt (m : Int)) (PyFloat.ofInt 100) : F) := by
  obtain ⟨_, n1, n2, n3, n4⟩ := near_hundredth L n (hnm.trans hm)
  obtain ⟨_, m1, _, _, m4⟩ := near_hundredth L m hm
  rw [(L.div _ _ n1.1 n3 n2.ne' n4).2, (L.div _ _ m1.1 n3 n2.ne' m4).2]
  refine L.mono _ _ n4 m4 (div_le_div_of_nonneg_right ?_ n2.le)
  have hb : ∀ k : Nat, k ≤ 9999 → |((k : Int) : ℝ)| ≤ 2 ^ 40 := by
    intro k hk
    have : (k : ℝ) ≤ 9999 := by exact_mod_cast hk
    push_cast
    rw [abs_of_nonneg (by positivity)]; linarith [show (9999 : ℝ) ≤ 2 ^ 40 by norm_num]
  rw [(L.ofInt n (hb n (hnm.trans hm))).2, (L.ofInt m (hb m hm)).2]
  refine L.mono _ _ (hb n (hnm.trans hm)) (hb m hm) ?_
  push_cast; exact_mod_cast hnm

/-- The factor a Mach number is multiplied with. -/
theorem mach_eq (n a : Int) : Utils.machToMsSpeed (F := F) n a = PyFloat.mul (PyFloat.div (PyFloat.ofInt n) (PyFloat.ofInt 100))
    (if a = 0 then Constants.machToMetersSecond else Utils.speedOfSoundAtAltitude a) := by
  unfold Utils.machToMsSpeed; split <;> rfl

theorem near_factor (L : Rounded F) {a : Int} (h0 : 0 ≤ a) :
    Near L (if a = 0 then Constants.machToMetersSecond else Utils.speedOfSoundAtAltitude a : F)
      (if a = 0 then 343 else soundSpeed a) (2 / 10 ^ 6) ∧
    0 ≤ (if a = 0 then 343 else soundSpeed a : ℝ) ∧ (if a = 0 then 343 else soundSpeed a : ℝ) ≤ 343 ∧
    0 ≤ L.val (if a = 0 then Constants.machToMetersSecond else Utils.speedOfSoundAtAltitude a : F) := by
  have h := soundSpeed_range (a := a) (by exact_mod_cast h0)
  split
  · have x4 : Near L (Constants.machToMetersSecond : F) 343 (2 / 10 ^ 6) :=
      near_dec 3430 1 (R := 343) (by norm_num) (by norm_num [abs_of_nonneg]) (by norm_num) (by norm_num)
    refine ⟨x4, by norm_num, by norm_num, ?_⟩
    have := (abs_le.1 x4.2).1
    norm_num at this; linarith
  · have x4 := near_sound L h0
    refine ⟨x4, by linarith, by linarith, ?_⟩
    have := (abs_le.1 x4.2).1
    norm_num at this; linarith

theorem factor_antitone (L : Rounded F) {a b : Int} (h0 : 0 ≤ a) (hab : a ≤ b) :
    L.val (if b = 0 then Constants.machToMetersSecond else Utils.speedOfSoundAtAltitude b : F) ≤
      L.val (if a = 0 then Constants.machToMetersSecond else Utils.speedOfSoundAtAltitude a : F) := by
  by_cases hb : b = 0
  · have : a = 0 := by omega
    subst this hb; exact le_refl _
  · by_cases ha : a = 0
    · rw [if_neg hb, if_pos ha]
      have h := soundSpeed_range (a := b) (by exact_mod_cast (h0.trans hab))
      have x4 : Near L (Constants.machToMetersSecond : F) 343 (1 / 10 ^ 6) :=
        near_dec 3430 1 (R := 343) (by norm_num) (by norm_num [abs_of_nonneg]) (by norm_num) (by norm_num)
      have x5 := near_sound L (h0.trans hab)
      have h1 := (abs_le.1 x4.2).1
      have h2 := (abs_le.1 x5.2).2
      norm_num at h1 h2; linarith
    · rw [if_neg hb, if_neg ha]; exact sound_antitone L h0 hab

/-- Truncation after adding one half is monotone. -/
theorem rounded_mono (L : Rounded F) {x y : F} (hx : L.fin x) (hy : L.fin y) (h0 : -(1 / 8) ≤ L.val x) (h : L.val x ≤ L.val y)
    (h1 : L.val y ≤ 10 ^ 6) : PyFloat.toInt (PyFloat.add x (PyFloat.dec 5 1)) ≤ PyFloat.toInt (PyFloat.add y (PyFloat.dec 5 1)) := by
  have x4 : Near L (PyFloat.dec 5 1 : F) 0.5 (1 / 10 ^ 14) :=
    near_dec 5 1 (R := 1) (by norm_num) (by norm_num [abs_of_nonneg]) (by norm_num) (by norm_num)
  obtain ⟨d1, d2⟩ := abs_le.1 x4.2
  have half : 3 / 8 ≤ L.val (PyFloat.dec 5 1 : F) ∧ L.val (PyFloat.dec 5 1 : F) ≤ 1 := by
    constructor <;> (norm_num at d1 d2; linarith)
  have big : (10 : ℝ) ^ 6 + 1 ≤ 2 ^ 40 := by norm_num
  have bx : |L.val x + L.val (PyFloat.dec 5 1 : F)| ≤ 2 ^ 40 := by rw [abs_of_nonneg (by linarith)]; linarith
  have bY : |L.val y + L.val (PyFloat.dec 5 1 : F)| ≤ 2 ^ 40 := by rw [abs_of_nonneg (by linarith)]; linarith
  obtain ⟨a1, a2⟩ := L.add x (PyFloat.dec 5 1) hx x4.1 bx
  obtain ⟨b1, b2⟩ := L.add y (PyFloat.dec 5 1) hy x4.1 bY
  have hm := L.mono _ _ bx bY (add_le_add_left h (L.val (PyFloat.dec 5 1 : F)))
  have hq : 0 ≤ L.val (PyFloat.add x (PyFloat.dec 5 1) : F) := by
    have hv : 1 / 8 ≤ L.val x + L.val (PyFloat.dec 5 1 : F) := by linarith [half.1]
    have hn := (abs_le.1 (L.near _ bx)).1
    rw [abs_of_nonneg (by linarith)] at hn
    rw [a2]
    norm_num at hn
    linarith
  rw [L.toInt _ a1 hq, L.toInt _ b1 (by rw [b2]; rw [a2] at hq; linarith), a2, b2]
  exact Int.floor_le_floor hm

theorem mach_bounds (L : Rounded F) (n : Nat) (hn : n ≤ 9999) {a : Int} (h0 : 0 ≤ a) :
    L.fin (Utils.machToMsSpeed n a : F) ∧ -(1 / 8) ≤ L.val (Utils.machToMsSpeed n a : F) ∧ L.val (Utils.machToMsSpeed n a : F) ≤ 10 ^ 6 := by
  have hn' : (n : ℝ) ≤ 9999 := by exact_mod_cast hn
  obtain ⟨_, f0, f1, _⟩ := near_factor L h0
  have x1 := near_mach L n hn h0
  have hv0 : 0 ≤ (n : ℝ) / 100 * (if a = 0 then 343 else soundSpeed a) := mul_nonneg (by positivity) f0
  have hv1 : (n : ℝ) / 100 * (if a = 0 then 343 else soundSpeed a) ≤ 100 * 343 :=
    mul_le_mul (by linarith) f1 f0 (by norm_num)
  obtain ⟨h1, h2⟩ := abs_le.1 x1.2
  exact ⟨x1.1, by linarith, by linarith⟩

theorem mach_step (L : Rounded F) {n m : Nat} (hn : n ≤ 9999) (hm : m ≤ 9999) {a b : Int} (ha : 0 ≤ a) (hb : 0 ≤ b)
    (h : L.val (Utils.machToMsSpeed n a : F) ≤ L.val (Utils.machToMsSpeed m b : F)) :
    speedToSi (F := F) (py! "M") n a ≤ speedToSi (F := F) (py! "M") m b := by
  unfold speedToSi
  dsimp only
  rw [if_neg (by decide), if_neg (by decide), if_pos rfl, if_neg (by decide), if_neg (by decide), if_pos rfl]
  obtain ⟨x1, x2, x3⟩ := mach_bounds L n hn ha
  obtain ⟨y1, y2, y3⟩ := mach_bounds L m hm hb
  exact rounded_mono L x1 y1 x2 h y3

theorem mach_prod (L : Rounded F) (n : Nat) (hn : n ≤ 9999) {a : Int} (h0 : 0 ≤ a) :
    |L.val (PyFloat.div (PyFloat.ofInt (n : Int)) (PyFloat.ofInt 100) : F) *
      L.val (if a = 0 then Constants.machToMetersSecond else Utils.speedOfSoundAtAltitude a : F)| ≤ 2 ^ 40 ∧
    L.val (Utils.machToMsSpeed n a : F) = L.rnd (L.val (PyFloat.div (PyFloat.ofInt (n : Int)) (PyFloat.ofInt 100) : F) *
      L.val (if a = 0 then Constants.machToMetersSecond else Utils.speedOfSoundAtAltitude a : F)) := by
  have hn' : (n : ℝ) ≤ 9999 := by exact_mod_cast hn
  have x := (near_hundredth L n hn).1
  obtain ⟨y, f0, f1, _⟩ := near_factor L h0
  have bx := x.bound (R := 100) (B := 101) (by rw [abs_of_nonneg (by positivity)]; linarith) (by norm_num)
  have bY := y.bound (R := 343) (B := 344) (by rw [abs_of_nonneg f0]; exact f1) (by norm_num)
  have b := mul_bound bx bY (by norm_num)
  refine ⟨b, ?_⟩
  rw [mach_eq]
  exact (L.mul _ _ x.1 y.1 b).2

theorem mach_mono (L : Rounded F) {n m : Nat} (hnm : n ≤ m) (hm : m ≤ 9999) {a : Int} (h0 : 0 ≤ a) :
    speedToSi (F := F) (py! "M") n a ≤ speedToSi (F := F) (py! "M") m a := by
  refine mach_step L (hnm.trans hm) hm h0 h0 ?_
  obtain ⟨b1, e1⟩ := mach_prod L n (hnm.trans hm) h0
  obtain ⟨b2, e2⟩ := mach_prod L m hm h0
  rw [e1, e2]
  exact L.mono _ _ b1 b2 (mul_le_mul_of_nonneg_right (hundredth_mono L hnm hm) (near_factor L h0).2.2.2)

theorem hundredth_nonneg (L : Rounded F) (n : Nat) (hn : n ≤ 9999) (h1 : 1 ≤ n) :
    0 ≤ L.val (PyFloat.div (PyFloat.ofInt (n : Int)) (PyFloat.ofInt 100) : F) := by
  have x := (abs_le.1 (near_hundredth L n hn).1.2).1
  have : (1 : ℝ) ≤ n := by exact_mod_cast h1
  norm_num at x
  linarith

theorem mach_antitone (L : Rounded F) {n : Nat} (hn : n ≤ 9999) {a b : Int} (h0 : 0 ≤ a) (hab : a ≤ b) :
    speedToSi (F := F) (py! "M") n b ≤ speedToSi (F := F) (py! "M") n a := by
  have hb := h0.trans hab
  by_cases h1 : 1 ≤ n
  · refine mach_step L hn hn hb h0 ?_
    obtain ⟨b1, e1⟩ := mach_prod L n hn h0
    obtain ⟨b2, e2⟩ := mach_prod L n hn hb
    rw [e1, e2]
    exact L.mono _ _ b2 b1 (mul_le_mul_of_nonneg_left (factor_antitone L h0 hab) (hundredth_nonneg L n hn h1))
  · have : n = 0 := by omega
    subst this
    have hz : ∀ c : Int, 0 ≤ c → speedToSi (F := F) (py! "M") ((0 : Nat) : Int) c = 0 := by
      intro c hc
      have := abs_le.1 (speed_mach L 0 hn hc)
      norm_num at this
      obtain ⟨q1, q2⟩ := this
      have w1 : (-1 : ℝ) < ((speedToSi (F := F) (py! "M") 0 c : Int) : ℝ) := by linarith
      have w2 : ((speedToSi (F := F) (py! "M") 0 c : Int) : ℝ) < 1 := by linarith
      have w1' : (-1 : Int) < speedToSi (F := F) (py! "M") 0 c := by exact_mod_cast w1
      have w2' : speedToSi (F := F) (py! "M") 0 c < 1 := by exact_mod_cast w2
      show speedToSi (F := F) (py! "M") 0 c = 0
      omega
    rw [hz a h0, hz b hb]

end F15
