import Verif.Lemmas.Near
import Verif.Props.Ranges
import Verif.Spec.FloatModels
/-!
# C27, C29: the numbers of the positions
-/

namespace F15
open Spec

set_option linter.unusedSectionVars false
variable {F : Type} [PyFloat F]

theorem val_ofInt (L : Rounded F) (n : Nat) (h : n ≤ 9999) :
    L.fin (PyFloat.ofInt (n : Int)) ∧ L.val (PyFloat.ofInt (n : Int)) = n := by
  have hn : |((n : Int) : ℝ)| ≤ 2 ^ 40 := by
    have : (n : ℝ) ≤ 9999 := by exact_mod_cast h
    rw [abs_of_nonneg (by positivity)]; push_cast; linarith
  obtain ⟨h1, h2⟩ := L.ofInt n hn
  exact ⟨h1, by rw [h2, L.whole _ hn]; simp⟩

theorem val_whole (L : Rounded F) {m : Int} {e : Nat} {n : Int} (h : (m : ℝ) / 10 ^ e = n) (hn : |(n : ℝ)| ≤ 2 ^ 40) :
    L.fin (PyFloat.dec m e) ∧ L.val (PyFloat.dec m e) = n := by
  obtain ⟨h1, h2⟩ := L.dec m e (by rw [h]; exact hn)
  exact ⟨h1, by rw [h2, h, L.whole _ hn]⟩

/-- Rounding keeps numbers within whole bounds. -/
theorem rnd_within (L : Rounded F) {a b : Int} {x : ℝ} (ha : |(a : ℝ)| ≤ 2 ^ 40) (hb : |(b : ℝ)| ≤ 2 ^ 40) (h1 : a ≤ x) (h2 : x ≤ b) :
    a ≤ L.rnd x ∧ L.rnd x ≤ b := by
  have hx : |x| ≤ 2 ^ 40 := abs_le.2 ⟨by linarith [(abs_le.1 ha).1], by linarith [(abs_le.1 hb).2]⟩
  refine ⟨?_, ?_⟩
  · have := L.mono _ _ ha hx h1
    rwa [L.whole a ha] at this
  · have := L.mono _ _ hx hb h2
    rwa [L.whole b hb] at this

theorem num2_le {a b : Char} (ha : Digit a) (hb : Digit b) : num2 a b ≤ 99 := by
  have h1 : dval a ≤ 9 := by
    have := ha.2
    have : a.toNat ≤ '9'.toNat := this
    unfold dval; have : '9'.toNat = 57 := rfl; have : '0'.toNat = 48 := rfl; omega
  have h2 : dval b ≤ 9 := by
    have := hb.2
    have : b.toNat ≤ '9'.toNat := this
    unfold dval; have : '9'.toNat = 57 := rfl; have : '0'.toNat = 48 := rfl; omega
  unfold num2; omega

theorem num3_le {a b c : Char} (ha : Digit a) (hb : Digit b) (hc : Digit c) : num3 a b c ≤ 999 := by
  have h1 := num2_le ha hb
  have h2 := num2_le hb hc
  unfold num2 at h1 h2; unfold num3; omega

/-- The sign: whole bounds are kept. -/
theorem hemi_within (L : Rounded F) {x : F} (hf : L.fin x) {B : Nat} (hB : B ≤ 9999) (hx : 0 ≤ L.val x ∧ L.val x ≤ B) (h : Char) :
    L.fin (hemi h x) ∧ |L.val (hemi h x)| ≤ B := by
  have hB' : (B : ℝ) ≤ 9999 := by exact_mod_cast hB
  unfold hemi
  split
  · obtain ⟨m1, m2⟩ := val_whole L (m := -10) (e := 1) (n := -1) (by norm_num) (by norm_num)
    have e : L.val x * L.val (PyFloat.dec (-10) 1 : F) = - L.val x := by rw [m2]; push_cast; ring
    have hb : |L.val x * L.val (PyFloat.dec (-10) 1 : F)| ≤ 2 ^ 40 := by
      rw [e, abs_neg, abs_of_nonneg hx.1]; linarith
    obtain ⟨p1, p2⟩ := L.mul x _ hf m1 hb
    refine ⟨p1, ?_⟩
    rw [p2, e]
    have hw := rnd_within L (a := -(B : Int)) (b := (B : Int)) (x := - L.val x)
      (by push_cast; rw [abs_neg, abs_of_nonneg (by positivity)]; linarith)
      (by push_cast; rw [abs_of_nonneg (by positivity)]; linarith) (by push_cast; linarith) (by push_cast; linarith)
    push_cast at hw
    exact abs_le.2 hw
  · exact ⟨hf, abs_le.2 ⟨by linarith, hx.2⟩⟩

theorem hemi_near {L : Rounded F} {x : F} {r d : ℝ} (hx : Near L x r d) (hr : |r| ≤ 1100) (hd : 0 ≤ d) (hd1 : d ≤ 1) (h : Char) :
    Near L (hemi h x) (signedAngle h r) (d + 1 / 10 ^ 11) := by
  unfold hemi signedAngle
  split
  · obtain ⟨m1, m2⟩ := val_whole L (m := -10) (e := 1) (n := -1) (by norm_num) (by norm_num)
    have e : L.val x * L.val (PyFloat.dec (-10) 1 : F) = - L.val x := by rw [m2]; push_cast; ring
    have h1 : |L.val x * L.val (PyFloat.dec (-10) 1 : F) - (-r)| ≤ d := by
      rw [e, show -L.val x - -r = -(L.val x - r) by ring, abs_neg]; exact hx.2
    obtain ⟨h2, h3⟩ := round_step (L := L) h1 (R := 1100) (d' := d + 1 / 10 ^ 11) (by rw [abs_neg]; exact hr)
      (by linarith [show (1101 : ℝ) ≤ 2 ^ 40 by norm_num]) (by
        have : (1100 + d + 1) / 2 ^ 50 ≤ (1 / 10 ^ 11 : ℝ) := by
          rw [div_le_div_iff₀ (by positivity) (by positivity)]
          norm_num; linarith
        linarith)
    obtain ⟨p1, p2⟩ := L.mul x _ hx.1 m1 h2
    exact ⟨p1, by rw [p2]; exact h3⟩
  · exact hx.weaken (by norm_num)

/-- Degrees and minutes as calculated. -/
theorem degMin_val (L : Rounded F) {d m : Nat} (hd : d ≤ 999) (hm : m ≤ 99) :
    Near L (degreesMinutes (F := F) d m) (d + m / 60) (1 / 10 ^ 11) ∧
    ∀ B : Nat, m ≤ 59 → d * 60 + m ≤ B * 60 → B ≤ 9999 → 0 ≤ L.val (degreesMinutes (F := F) d m) ∧ L.val (degreesMinutes (F := F) d m) ≤ B := by
  obtain ⟨a1, a2⟩ := val_ofInt L d (by omega)
  obtain ⟨b1, b2⟩ := val_ofInt L m (by omega)
  obtain ⟨c1, c2⟩ := val_whole L (m := 600) (e := 1) (n := 60) (by norm_num) (by norm_num [abs_of_nonneg])
  have hd' : (d : ℝ) ≤ 999 := by exact_mod_cast hd
  have hm' : (m : ℝ) ≤ 99 := by exact_mod_cast hm
  have hd0 : (0 : ℝ) ≤ d := by positivity
  have hm0 : (0 : ℝ) ≤ m := by positivity
  have e : L.val (PyFloat.ofInt (m : Int) : F) / L.val (PyFloat.dec 600 1 : F) = m / 60 := by rw [b2, c2]; norm_num
  have q0 : (0 : ℝ) ≤ m / 60 := by positivity
  have hq : |L.val (PyFloat.ofInt (m : Int) : F) / L.val (PyFloat.dec 600 1 : F)| ≤ 2 ^ 40 := by
    rw [e, abs_of_nonneg q0]; linarith
  obtain ⟨f1, f2⟩ := L.div _ _ b1 c1 (by rw [c2]; norm_num) hq
  have n1 : Near L (PyFloat.div (PyFloat.ofInt (m : Int)) (PyFloat.dec 600 1) : F) (m / 60) (1 / 10 ^ 12) := by
    refine ⟨f1, ?_⟩
    rw [f2, e]
    rw [e] at hq
    refine (L.near _ hq).trans ?_
    rw [abs_of_nonneg q0, div_le_div_iff₀ (by positivity) (by positivity)]
    norm_num; linarith
  have n0 : Near L (PyFloat.ofInt (d : Int) : F) d 0 := ⟨a1, by rw [a2]; simp⟩
  refine ⟨n0.add n1 (R := 1001) (by rw [abs_of_nonneg (by linarith)]; linarith) (by norm_num) (by norm_num), ?_⟩
  intro B hm59 hB hB9
  have hB' : (B : ℝ) ≤ 9999 := by exact_mod_cast hB9
  have hw : 0 ≤ L.val (PyFloat.div (PyFloat.ofInt (m : Int)) (PyFloat.dec 600 1) : F) ∧
      d + L.val (PyFloat.div (PyFloat.ofInt (m : Int)) (PyFloat.dec 600 1) : F) ≤ B := by
    rw [f2, e]
    by_cases hz : m = 0
    · subst hz
      have : L.rnd ((0 : Nat) / 60 : ℝ) = 0 := by
        have := L.whole 0 (by norm_num)
        push_cast at this ⊢
        rw [zero_div]; exact this
      rw [this]
      have : (d : ℝ) ≤ B := by
        have : d ≤ B := by omega
        exact_mod_cast this
      exact ⟨le_refl _, by linarith⟩
    · have hm59' : (m : ℝ) ≤ 59 := by exact_mod_cast hm59
      have := rnd_within L (a := 0) (b := 1) (x := m / 60) (by norm_num) (by norm_num) (by push_cast; exact q0) (by push_cast; linarith)
      push_cast at this
      have hdB : (d : ℝ) + 1 ≤ B := by
        have : d + 1 ≤ B := by omega
        exact_mod_cast this
      exact ⟨this.1, by linarith [this.2]⟩
  have hs : |L.val (PyFloat.ofInt (d : Int) : F) + L.val (PyFloat.div (PyFloat.ofInt (m : Int)) (PyFloat.dec 600 1) : F)| ≤ 2 ^ 40 := by
    rw [a2, abs_of_nonneg (by linarith [hw.1])]; linarith [hw.2]
  obtain ⟨g1, g2⟩ := L.add _ _ a1 f1 hs
  unfold degreesMinutes
  rw [g2, a2]
  have := rnd_within L (a := 0) (b := (B : Int)) (x := d + L.val (PyFloat.div (PyFloat.ofInt (m : Int)) (PyFloat.dec 600 1) : F))
    (by norm_num) (by push_cast; rw [abs_of_nonneg (by positivity)]; linarith) (by push_cast; linarith [hw.1]) (by push_cast; exact hw.2)
  push_cast at this
  exact this

theorem deg_val (L : Rounded F) {d : Nat} (hd : d ≤ 999) : Near L (degrees (F := F) d) d (1 / 10 ^ 11) ∧
    ∀ B : Nat, d ≤ B → 0 ≤ L.val (degrees (F := F) d) ∧ L.val (degrees (F := F) d) ≤ B := by
  obtain ⟨a1, a2⟩ := val_ofInt L d (by omega)
  unfold degrees
  refine ⟨⟨a1, by rw [a2]; norm_num⟩, fun B hB => ?_⟩
  rw [a2]
  exact ⟨by positivity, by exact_mod_cast hB⟩

/-- **C27** The latitude and longitude of an element written as `ddHdddH` or `ddmmHdddmmH` are those of its text, in degrees, north and east
positive, with an error of at most `2e-11` degrees. -/
theorem c27_value (L : Rounded F) {frames : Nat} {tokens : Tokens} {b : Bool} {e' : Ers F}
    (h : parseF15 frames Ers.new tokens = .ok (b, e')) {r : Record F} (hr : r ∈ e'.elements) (hv : r.latLongValid = true)
    (hs : r.sub = .LL_DEG ∨ r.sub = .LL_MIN) :
    ∃ lat lon, WrittenPosition r.name lat lon ∧ L.fin r.latitude ∧ L.fin r.longitude ∧
      |L.val r.latitude - lat| ≤ 2 / 10 ^ 11 ∧ |L.val r.longitude - lon| ≤ 2 / 10 ^ 11 := by
  have fin : ∀ {lt ln : F} {x y : ℝ} (k1 k2 : Char), Near L lt x (1 / 10 ^ 11) → Near L ln y (1 / 10 ^ 11) → |x| ≤ 1100 → |y| ≤ 1100 →
      L.fin (hemi k1 lt) ∧ L.fin (hemi k2 ln) ∧ |L.val (hemi k1 lt) - signedAngle k1 x| ≤ 2 / 10 ^ 11 ∧
        |L.val (hemi k2 ln) - signedAngle k2 y| ≤ 2 / 10 ^ 11 := by
    intro lt ln x y k1 k2 h1 h2 h3 h4
    have g1 := hemi_near h1 h3 (by norm_num) (by norm_num) k1
    have g2 := hemi_near h2 h4 (by norm_num) (by norm_num) k2
    exact ⟨g1.1, g2.1, g1.2.trans (by norm_num), g2.2.trans (by norm_num)⟩
  rcases c27 h hr hv with ⟨_, a, b, k, c, d, e, l, hn, hd, hk, hl, hp⟩ | ⟨_, a, b, c, d, k, e, f, g, i, j, l, hn, hd, hk, hl, hp⟩ | ⟨h', _⟩ | ⟨h', _⟩
  · simp only [Prod.mk.injEq] at hp
    have n1 := num2_le (a := a) (b := b) (hd a (by simp)) (hd b (by simp))
    have n2 := num3_le (a := c) (b := d) (c := e) (hd c (by simp)) (hd d (by simp)) (hd e (by simp))
    have n1' : ((num2 a b : Nat) : ℝ) ≤ 99 := by exact_mod_cast n1
    have n2' : ((num3 c d e : Nat) : ℝ) ≤ 999 := by exact_mod_cast n2
    refine ⟨_, _, .inl ⟨a, b, k, c, d, e, l, hn, hd, hk, hl, rfl, rfl⟩, ?_⟩
    rw [hp.1, hp.2]
    exact fin k l (deg_val L (by omega)).1 (deg_val L (by omega)).1 (by rw [abs_of_nonneg (by positivity)]; linarith)
      (by rw [abs_of_nonneg (by positivity)]; linarith)
  · simp only [Prod.mk.injEq] at hp
    have n1 := num2_le (a := a) (b := b) (hd a (by simp)) (hd b (by simp))
    have n2 := num3_le (a := e) (b := f) (c := g) (hd e (by simp)) (hd f (by simp)) (hd g (by simp))
    have n3 := num2_le (a := c) (b := d) (hd c (by simp)) (hd d (by simp))
    have n4 := num2_le (a := i) (b := j) (hd i (by simp)) (hd j (by simp))
    have n1' : ((num2 a b : Nat) : ℝ) ≤ 99 := by exact_mod_cast n1
    have n2' : ((num3 e f g : Nat) : ℝ) ≤ 999 := by exact_mod_cast n2
    have n3' : ((num2 c d : Nat) : ℝ) ≤ 99 := by exact_mod_cast n3
    have n4' : ((num2 i j : Nat) : ℝ) ≤ 99 := by exact_mod_cast n4
    refine ⟨_, _, .inr ⟨a, b, c, d, k, e, f, g, i, j, l, hn, hd, hk, hl, rfl, rfl⟩, ?_⟩
    rw [hp.1, hp.2]
    exact fin k l (degMin_val L (by omega) n3).1 (degMin_val L (by omega) n4).1 (by rw [abs_of_nonneg (by positivity)]; linarith)
      (by rw [abs_of_nonneg (by positivity)]; linarith)
  · rcases hs with hs | hs <;> rw [hs] at h' <;> cases h'
  · rcases hs with hs | hs <;> rw [hs] at h' <;> cases h'

/-- **C29** In an accepted field 15 the latitude of an element written as `ddHdddH` or `ddmmHdddmmH` that has a position is at most 90
degrees north or south, and its longitude is at most 180 degrees east or west: exactly, also after rounding. -/
theorem c29_value (L : Rounded F) {frames : Nat} {tokens : Tokens} {e' : Ers F}
    (h : parseF15 frames Ers.new tokens = .ok (true, e')) {r : Record F} (hr : r ∈ e'.elements) (hv : r.latLongValid = true)
    (hs : r.sub = .LL_DEG ∨ r.sub = .LL_MIN) :
    L.fin r.latitude ∧ L.fin r.longitude ∧ |L.val r.latitude| ≤ 90 ∧ |L.val r.longitude| ≤ 180 := by
  have ok := fun n => c29_accepted h hr hv n
  have fin : ∀ {lt ln : F} (k1 k2 : Char), L.fin lt → L.fin ln → 0 ≤ L.val lt ∧ L.val lt ≤ (90 : Nat) → 0 ≤ L.val ln ∧ L.val ln ≤ (180 : Nat) →
      L.fin (hemi k1 lt) ∧ L.fin (hemi k2 ln) ∧ |L.val (hemi k1 lt)| ≤ 90 ∧ |L.val (hemi k2 ln)| ≤ 180 := by
    intro lt ln k1 k2 h1 h2 h3 h4
    obtain ⟨g1, g2⟩ := hemi_within L h1 (B := 90) (by norm_num) h3 k1
    obtain ⟨g3, g4⟩ := hemi_within L h2 (B := 180) (by norm_num) h4 k2
    exact ⟨g1, g3, by exact_mod_cast g2, by exact_mod_cast g4⟩
  rcases c27 h hr hv with ⟨hu, a, b, k, c, d, e, l, hn, hd, hk, hl, hp⟩ | ⟨hu, a, b, c, d, k, e, f, g, i, j, l, hn, hd, hk, hl, hp⟩ | ⟨h', _⟩ | ⟨h', _⟩
  · simp only [Prod.mk.injEq] at hp
    have r1 : num2 a b ≤ 90 := by
      refine Nat.not_lt.1 fun hc => ok 42 (.inl ⟨.inl hu, .inl ⟨rfl, a, b, _, hn, hc⟩⟩)
    have r2 : num3 c d e ≤ 180 := by
      refine Nat.not_lt.1 fun hc => ok 44 (.inl ⟨.inl hu, .inr ⟨rfl, a, b, k, c, d, e, _, hn, hc⟩⟩)
    rw [hp.1, hp.2]
    exact fin k l (deg_val L (by omega)).1.1 (deg_val L (by omega)).1.1 ((deg_val L (by omega)).2 90 r1) ((deg_val L (by omega)).2 180 r2)
  · simp only [Prod.mk.injEq] at hp
    have n1 := num2_le (a := a) (b := b) (hd a (by simp)) (hd b (by simp))
    have n2 := num3_le (a := e) (b := f) (c := g) (hd e (by simp)) (hd f (by simp)) (hd g (by simp))
    have r1 : num2 c d ≤ 59 ∧ num2 a b * 60 + num2 c d ≤ 90 * 60 := by
      have : ¬ (num2 c d > 59 ∨ num2 a b * 60 + num2 c d > 90 * 60) := fun hc =>
        ok 43 (.inr (.inl ⟨.inl hu, .inl ⟨rfl, a, b, c, d, _, hn, hc⟩⟩))
      omega
    have r2 : num2 i j ≤ 59 ∧ num3 e f g * 60 + num2 i j ≤ 180 * 60 := by
      have : ¬ (num2 i j > 59 ∨ num3 e f g * 60 + num2 i j > 180 * 60) := fun hc =>
        ok 45 (.inr (.inl ⟨.inl hu, .inr ⟨rfl, a, b, c, d, k, e, f, g, i, j, _, hn, hc⟩⟩))
      omega
    have m1 := degMin_val L (d := num2 a b) (m := num2 c d) (by omega) (by omega)
    have m2 := degMin_val L (d := num3 e f g) (m := num2 i j) (by omega) (by omega)
    rw [hp.1, hp.2]
    exact fin k l m1.1.1 m2.1.1 (m1.2 90 r1.1 r1.2 (by norm_num)) (m2.2 180 r2.1 r2.2 (by norm_num))
  · rcases hs with hs | hs <;> rw [hs] at h' <;> cases h'
  · rcases hs with hs | hs <;> rw [hs] at h' <;> cases h'

/-- Both forms, in all hemispheres, up to the poles and the date line. -/
example : check (py! "N0450F350 90S180W 5030N00015W 8959S17959E") (fun b e => b && decide
    (e.elements.map (fun r => (r.sub, r.latLongValid, r.latitude, r.longitude)) = [(.PRP_AERO, false, 0, 0), (.LL_DEG, true, -90, -180),
      (.LL_MIN, true, 101 / 2, -(1 / 4)), (.LL_MIN, true, -(5399 / 60), 10799 / 60), (.PRP_AERO, false, 0, 0)])) = true := by
  decide +kernel

/-- The laws of rounding hold of double precision numbers. -/
example : Nonempty (Rounded Double) := ⟨Rounded.double⟩

end F15
