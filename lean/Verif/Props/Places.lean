import Verif.Props.Angles
/-!
# C84: coordinates can be compared

Latitudes and longitudes are floats. The calculated ones compare exactly as the written ones do: equal, smaller, greater, whichever of the two forms they are
written in.
-/

namespace F15
open Spec

set_option linter.unusedSectionVars false
variable {F : Type} [PyFloat F]

/-- What is stored for an angle of `d` degrees and `m` minutes in the hemisphere `k`. -/
structure StoredAngle (L : Rounded F) (x : F) (y : ℝ) (k : Char) (d m : Nat) : Prop where
  small : d ≤ 999
  minutes : m ≤ 59
  exact_ : y = signedAngle k (d + m / 60)
  val : L.val x = if k = 'S' ∨ k = 'W' then L.rnd (- L.val (degreesMinutes (F := F) d m)) else L.val (degreesMinutes (F := F) d m)
  near : |L.val x - y| ≤ 2 / 10 ^ 11

theorem val_degMin_zero (L : Rounded F) {d : Nat} (hd : d ≤ 999) : L.fin (degreesMinutes (F := F) d 0) ∧ L.val (degreesMinutes (F := F) d 0) = d := by
  obtain ⟨a1, a2⟩ := val_ofInt L d (by omega)
  obtain ⟨b1, b2⟩ := val_ofInt L 0 (by omega)
  obtain ⟨c1, c2⟩ := val_whole L (m := 600) (e := 1) (n := 60) (by norm_num) (by norm_num [abs_of_nonneg])
  have hd' : (d : ℝ) ≤ 999 := by exact_mod_cast hd
  have hz : L.rnd 0 = 0 := by simpa using L.whole 0 (by norm_num)
  have e : L.val (PyFloat.ofInt ((0 : Nat) : Int) : F) / L.val (PyFloat.dec 600 1 : F) = 0 := by rw [b2]; simp
  obtain ⟨f1, f2⟩ := L.div _ _ b1 c1 (by rw [c2]; norm_num) (by rw [e]; norm_num)
  rw [e, hz] at f2
  have hs : |L.val (PyFloat.ofInt (d : Int) : F) + L.val (PyFloat.div (PyFloat.ofInt ((0 : Nat) : Int)) (PyFloat.dec 600 1) : F)| ≤ 2 ^ 40 := by
    rw [a2, f2, add_zero, abs_of_nonneg (by positivity)]; linarith [show (999 : ℝ) ≤ 2 ^ 40 by norm_num]
  obtain ⟨g1, g2⟩ := L.add _ _ a1 f1 hs
  unfold degreesMinutes
  refine ⟨g1, ?_⟩
  rw [g2, a2, f2, add_zero]
  have := L.whole (d : Int) (by push_cast; rw [abs_of_nonneg (by positivity)]; linarith [show (999 : ℝ) ≤ 2 ^ 40 by norm_num])
  simpa using this

theorem stored_hemi (L : Rounded F) {x : F} {d m : Nat} (hd : d ≤ 999) (hm : m ≤ 59) (hf : L.fin x) (hx : L.val x = L.val (degreesMinutes (F := F) d m)) (k : Char) :
    StoredAngle L (hemi k x) (signedAngle k (d + m / 60)) k d m := by
  have hd' : (d : ℝ) ≤ 999 := by exact_mod_cast hd
  have hm' : (m : ℝ) ≤ 59 := by exact_mod_cast hm
  have nr := (degMin_val L (d := d) (m := m) hd (by omega)).1
  have nx : Near L x (d + m / 60) (1 / 10 ^ 11) := ⟨hf, by rw [hx]; exact nr.2⟩
  have habs : |((d : ℝ) + m / 60)| ≤ 1100 := by rw [abs_of_nonneg (by positivity)]; linarith
  refine ⟨hd, hm, rfl, ?_, ((hemi_near nx habs (by norm_num) (by norm_num) k).2).trans (by norm_num)⟩
  unfold hemi
  split
  · obtain ⟨m1, m2⟩ := val_whole L (m := -10) (e := 1) (n := -1) (by norm_num) (by norm_num)
    have e : L.val x * L.val (PyFloat.dec (-10) 1 : F) = - L.val (degreesMinutes (F := F) d m) := by rw [m2, hx]; push_cast; ring
    have hb : |L.val x * L.val (PyFloat.dec (-10) 1 : F)| ≤ 2 ^ 40 := by
      rw [e, abs_neg, ← hx]
      have := abs_le.1 nx.2
      have := abs_le.1 habs
      rw [abs_le]
      constructor <;> nlinarith
    rw [(L.mul x _ hf m1 hb).2, e]
  · exact hx

/-- Angles compare as what is stored for them. -/
theorem stored_compare {L : Rounded F} {x x' : F} {y y' : ℝ} {k k' : Char} {d m d' m' : Nat} (h : StoredAngle L x y k d m)
    (h' : StoredAngle L x' y' k' d' m') : (L.val x < L.val x' ↔ y < y') ∧ (L.val x = L.val x' ↔ y = y') := by
  have key : ∀ {x x' : F} {y y' : ℝ} {k k' : Char} {d m d' m' : Nat}, StoredAngle L x y k d m → StoredAngle L x' y' k' d' m' → y < y' → L.val x < L.val x' := by
    intro x x' y y' k k' d m d' m' h h' hlt
    have i1 : ∃ z : Int, y * 60 = z := by
      rw [h.exact_]; unfold signedAngle
      split
      · exact ⟨-(d * 60 + m : Int), by push_cast; ring⟩
      · exact ⟨(d * 60 + m : Int), by push_cast; ring⟩
    have i2 : ∃ z : Int, y' * 60 = z := by
      rw [h'.exact_]; unfold signedAngle
      split
      · exact ⟨-(d' * 60 + m' : Int), by push_cast; ring⟩
      · exact ⟨(d' * 60 + m' : Int), by push_cast; ring⟩
    obtain ⟨z, hz⟩ := i1
    obtain ⟨z', hz'⟩ := i2
    have hzz : z < z' := by
      have : (z : ℝ) < z' := by rw [← hz, ← hz']; linarith
      exact_mod_cast this
    have hzr : (z : ℝ) + 1 ≤ z' := by exact_mod_cast hzz
    have n1 := abs_le.1 h.near
    have n2 := abs_le.1 h'.near
    have : y + 1 / 60 ≤ y' := by linarith
    have e1 : (2 / 10 ^ 11 : ℝ) ≤ 1 / 1000 := by norm_num
    linarith [n1.2, n2.1]
  have heq : y = y' → L.val x = L.val x' := by
    intro he
    rw [h.exact_, h'.exact_] at he
    have same : (d : ℝ) + m / 60 = d' + m' / 60 → d = d' ∧ m = m' := by
      intro hs
      have : (d * 60 + m : ℝ) = d' * 60 + m' := by linarith
      have : d * 60 + m = d' * 60 + m' := by exact_mod_cast this
      have := h.minutes
      have := h'.minutes
      omega
    have zero : (d : ℝ) + m / 60 = -(d' + m' / 60) → d = 0 ∧ m = 0 ∧ d' = 0 ∧ m' = 0 := by
      intro hs
      have : (d * 60 + m + d' * 60 + m' : ℝ) = 0 := by linarith
      have : d * 60 + m + d' * 60 + m' = 0 := by exact_mod_cast this
      omega
    have hz : L.rnd 0 = 0 := by simpa using L.whole 0 (by norm_num)
    have h0 : L.val (degreesMinutes (F := F) 0 0) = 0 := by simpa using (val_degMin_zero L (d := 0) (by omega)).2
    rw [h.val, h'.val]
    unfold signedAngle at he
    split at he <;> split at he <;> rename_i c1 c2
    · obtain ⟨rfl, rfl⟩ := same (by linarith)
      rw [if_pos c1, if_pos c2]
    · obtain ⟨rfl, rfl, rfl, rfl⟩ := zero (by linarith)
      rw [if_pos c1, if_neg c2, h0, neg_zero, hz]
    · obtain ⟨rfl, rfl, rfl, rfl⟩ := zero (by linarith)
      rw [if_neg c1, if_pos c2, h0, neg_zero, hz]
    · obtain ⟨rfl, rfl⟩ := same he
      rw [if_neg c1, if_neg c2]
  rcases lt_trichotomy y y' with hl | he | hg
  · have := key h h' hl
    exact ⟨⟨fun _ => hl, fun _ => this⟩, ⟨fun e => absurd e this.ne, fun e => absurd e hl.ne⟩⟩
  · have := heq he
    exact ⟨⟨fun l => absurd this l.ne, fun l => absurd he l.ne⟩, ⟨fun _ => he, fun _ => this⟩⟩
  · have := key h' h hg
    exact ⟨⟨fun l => absurd l this.asymm, fun l => absurd l hg.asymm⟩, ⟨fun e => absurd e this.ne', fun e => absurd e hg.ne'⟩⟩

theorem stored_position (L : Rounded F) {frames : Nat} {tokens : Tokens} {e' : Ers F}
    (h : parseF15 frames Ers.new tokens = .ok (true, e')) {r : Record F} (hr : r ∈ e'.elements) (hv : r.latLongValid = true)
    (hs : r.sub = .LL_DEG ∨ r.sub = .LL_MIN) :
    ∃ lat lon, WrittenPosition r.name lat lon ∧ (∃ k d m, StoredAngle L r.latitude lat k d m) ∧ ∃ k d m, StoredAngle L r.longitude lon k d m := by
  have ok := fun n => c29_accepted h hr hv n
  have deg : ∀ {d : Nat}, d ≤ 999 → L.fin (degrees (F := F) d) ∧ L.val (degrees (F := F) d) = L.val (degreesMinutes (F := F) d 0) := fun {d} hd => by
    obtain ⟨a1, a2⟩ := val_ofInt L d (by omega)
    exact ⟨a1, by rw [(val_degMin_zero L hd).2]; exact a2⟩
  rcases c27 h hr hv with ⟨_, a, b, k, c, d, e, l, hn, hd, hk, hl, hp⟩ | ⟨hu, a, b, c, d, k, e, f, g, i, j, l, hn, hd, hk, hl, hp⟩ | ⟨h', _⟩ | ⟨h', _⟩
  · simp only [Prod.mk.injEq] at hp
    have n1 := num2_le (a := a) (b := b) (hd a (by simp)) (hd b (by simp))
    have n2 := num3_le (a := c) (b := d) (c := e) (hd c (by simp)) (hd d (by simp)) (hd e (by simp))
    refine ⟨_, _, .inl ⟨a, b, k, c, d, e, l, hn, hd, hk, hl, rfl, rfl⟩, ⟨k, num2 a b, 0, ?_⟩, l, num3 c d e, 0, ?_⟩
    · rw [hp.1]
      simpa using stored_hemi L (by omega) (by omega) (deg (by omega)).1 (deg (d := num2 a b) (by omega)).2 k
    · rw [hp.2]
      simpa using stored_hemi L (by omega) (by omega) (deg (by omega)).1 (deg (d := num3 c d e) (by omega)).2 l
  · simp only [Prod.mk.injEq] at hp
    have n1 := num2_le (a := a) (b := b) (hd a (by simp)) (hd b (by simp))
    have n2 := num3_le (a := e) (b := f) (c := g) (hd e (by simp)) (hd f (by simp)) (hd g (by simp))
    have r1 : num2 c d ≤ 59 := by
      refine Nat.not_lt.1 fun hc => ok 43 (.inr (.inl ⟨.inl hu, .inl ⟨rfl, a, b, c, d, _, hn, .inl hc⟩⟩))
    have r2 : num2 i j ≤ 59 := by
      refine Nat.not_lt.1 fun hc => ok 45 (.inr (.inl ⟨.inl hu, .inr ⟨rfl, a, b, c, d, k, e, f, g, i, j, _, hn, .inl hc⟩⟩))
    refine ⟨_, _, .inr ⟨a, b, c, d, k, e, f, g, i, j, l, hn, hd, hk, hl, rfl, rfl⟩, ⟨k, num2 a b, num2 c d, ?_⟩, l, num3 e f g, num2 i j, ?_⟩
    · rw [hp.1]
      exact stored_hemi L (by omega) r1 (degMin_val L (by omega) (by omega)).1.1 rfl k
    · rw [hp.2]
      exact stored_hemi L (by omega) r2 (degMin_val L (by omega) (by omega)).1.1 rfl l
  · rcases hs with hs | hs <;> rw [hs] at h' <;> cases h'
  · rcases hs with hs | hs <;> rw [hs] at h' <;> cases h'

/-- **C84** Two elements, of one accepted field 15 or of two, that have a position and are written as `ddHdddH` or `ddmmHdddmmH`, each in either form. Their
latitudes compare exactly as the written ones do, and so do their longitudes. -/
theorem c84 (L : Rounded F) {frames frames' : Nat} {tokens tokens' : Tokens} {e e' : Ers F}
    (h : parseF15 frames Ers.new tokens = .ok (true, e)) (h' : parseF15 frames' Ers.new tokens' = .ok (true, e'))
    {r r' : Record F} (hr : r ∈ e.elements) (hr' : r' ∈ e'.elements) (hv : r.latLongValid = true) (hv' : r'.latLongValid = true)
    (hs : r.sub = .LL_DEG ∨ r.sub = .LL_MIN) (hs' : r'.sub = .LL_DEG ∨ r'.sub = .LL_MIN) :
    ∃ lat lon lat' lon', WrittenPosition r.name lat lon ∧ WrittenPosition r'.name lat' lon' ∧
      (L.val r.latitude < L.val r'.latitude ↔ lat < lat') ∧ (L.val r.latitude = L.val r'.latitude ↔ lat = lat') ∧
      (L.val r.longitude < L.val r'.longitude ↔ lon < lon') ∧ (L.val r.longitude = L.val r'.longitude ↔ lon = lon') := by
  obtain ⟨lat, lon, h1, ⟨_, _, _, h2⟩, _, _, _, h3⟩ := stored_position L h hr hv hs
  obtain ⟨lat', lon', h1', ⟨_, _, _, h2'⟩, _, _, _, h3'⟩ := stored_position L h' hr' hv' hs'
  have g1 := stored_compare h2 h2'
  have g2 := stored_compare h3 h3'
  exact ⟨lat, lon, lat', lon', h1, h1', g1.1, g1.2, g2.1, g2.2⟩

/-- The same place written in three ways, and one a minute further south. -/
example : check (py! "N0450F350 51N000E 5100N00000W 51N000W 5059N00000E") (fun b e => b && decide
    (e.elements.map (fun r => (r.latLongValid, r.latitude, r.longitude)) = [(false, 0, 0), (true, 51, 0), (true, 51, 0), (true, 51, 0),
      (true, 3059 / 60, 0), (false, 0, 0)])) = true := by decide +kernel

end F15
