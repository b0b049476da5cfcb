import Verif.Lemmas.Monotone
import Verif.Props.Ranges
import Verif.Spec.FloatModels
/-!
# C33, C34, C35: conversion to metres and metres per second, the speed of sound

`L : Rounded F` are the laws of rounded arithmetic (`Verif/Spec/Float.lean`); `Rounded.double` (`Verif/Spec/FloatModels.lean`)
shows that double precision arithmetic obeys them.
-/

namespace F15
open Spec

set_option linter.unusedSectionVars false
variable {F : Type} [PyFloat F]

/-! ### Single levels and speeds -/

theorem level_metres (L : Rounded F) {lv : Str} (h : Level lv) : |((levelSi F lv : Int) : ℝ) - metres lv| < 1 / 2 := by
  rcases h with ⟨u, d, hu, rfl, hl, hd⟩ | ⟨u, d, hu, rfl, hl, hd⟩
  · have hn := numVal_lt hd
    rw [hl] at hn
    have hu : u = 'F' ∨ u = 'A' := by simpa using hu
    rcases hu with rfl | rfl
    · exact alt_feet L (.inr rfl) (numVal d) (by omega)
    · exact alt_feet L (.inl rfl) (numVal d) (by omega)
  · have hn := numVal_lt hd
    rw [hl] at hn
    have hu : u = 'S' ∨ u = 'M' := by simpa using hu
    have fin : ∀ type : Str, type = py! "S" ∨ type = py! "M" →
        |((altitudeToSi (F := F) type (numVal d) : Int) : ℝ) - numVal d * 10| < 1 / 2 := by
      intro type ht
      rw [alt_metres L ht (numVal d) (by omega)]
      push_cast
      norm_num
    rcases hu with rfl | rfl
    · exact fin _ (.inl rfl)
    · exact fin _ (.inr rfl)

theorem metres_nonneg (lv : Str) : 0 ≤ metres lv := by
  unfold metres
  split <;> positivity

theorem level_nonneg (L : Rounded F) {lv : Str} (h : Level lv) : 0 ≤ levelSi F lv := by
  have h1 := (abs_lt.1 (level_metres L h)).1
  have h2 := metres_nonneg lv
  have : (-1 : ℝ) < ((levelSi F lv : Int) : ℝ) := by linarith
  have : (-1 : Int) < levelSi F lv := by exact_mod_cast this
  omega

theorem speed_metres (L : Rounded F) {sp : Str} (h : Speed sp) {a : Int} (ha : 0 ≤ a) :
    |((speedSi F sp a : Int) : ℝ) - metresPerSecond sp a| < (if sp.head? = some 'M' then 1 / 2 + 2 / 1000 else 1 / 2) := by
  rcases h with ⟨u, d, hu, rfl, hl, hd⟩ | ⟨u, d, hu, rfl, hl, hd⟩
  · have hn := numVal_lt hd
    rw [hl] at hn
    have hu : u = 'M' := by simpa using hu
    subst hu
    rw [if_pos (show ('M' :: d).head? = some 'M' from rfl)]
    refine (speed_mach L (numVal d) (by omega) ha).trans_lt (by norm_num)
  · have hn := numVal_lt hd
    rw [hl] at hn
    have hu : u = 'K' ∨ u = 'N' := by simpa using hu
    rcases hu with rfl | rfl
    · rw [if_neg (by simp)]; exact speed_kmh L (numVal d) (by omega) a
    · rw [if_neg (by simp)]; exact speed_knots L (numVal d) (by omega) a

/-! ### C33 -/

/-- **C33** Every element of a parse has no level, or its level text is a level and its SI altitude is the nearest whole number of
metres: they differ by less than one half. -/
theorem c33 (L : Rounded F) {frames : Nat} {tokens : Tokens} {b : Bool} {e' : Ers F}
    (h : parseF15 frames Ers.new tokens = .ok (b, e')) {r : Record F} (hr : r ∈ e'.elements) :
    (r.altitude = [] ∧ r.altitudeSi = 0) ∨ (Level r.altitude ∧ |(r.altitudeSi : ℝ) - metres r.altitude| < 1 / 2) := by
  rcases ((parse_cause h).2.2 r hr).1 with hq | ⟨sp, lv, hs, hl, hq⟩
  · simp only [quad, Prod.mk.injEq] at hq
    exact .inl ⟨hq.2.2.1, hq.2.2.2⟩
  · simp only [quad, quadOf, Prod.mk.injEq] at hq
    obtain ⟨_, _, h3, h4⟩ := hq
    rw [h3, h4]
    exact .inr ⟨hl, level_metres L hl⟩

/-- A level in hundreds of feet, in tens of metres, the level of a SPEED/VFR. -/
example : check (py! "N0450F350 ABC/N0450A055 DEF/K0800M0840 GHI/K0200VFR") (fun b e => b && decide
    (e.elements.map (fun r => (r.altitude, r.altitudeSi)) =
      [(py! "F350", 10668), (py! "A055", 1676), (py! "M0840", 8400), (py! "F050", 1524), (py! "F050", 1524), ([], 0)])) = true := by
  decide +kernel

theorem cruise_inv (T : List Token) : ElemInv (F := F) T
    (fun r => r.cruiseTo = [] ∨ r.cruiseTo = py! "PLUS" ∨ r.cruiseToSi = levelSi F r.cruiseTo) := by
  have hpos : ∀ (t : Token) (q : Record F), (posHead t q).cruiseTo = q.cruiseTo := by
    intro t q; unfold posHead; cases t.sub <;> rfl
  have hbrk : ∀ (t : Token) (q : Record F), (brkRules t.sub q).cruiseTo = q.cruiseTo := by
    intro t q; unfold brkRules; cases t.sub <;> rfl
  refine ⟨?_, ?_, ?_⟩
  · intro r r' hk hp
    have h1 : r'.cruiseTo = r.cruiseTo := by unfold Keep at hk; rw [hk]
    have h2 : r'.cruiseToSi = r.cruiseToSi := by unfold Keep at hk; rw [hk]
    rw [h1, h2]; exact hp
  · intro a p h1 h2 h3 _
    refine .inl ?_
    cases a with
    | point t | ccPoint t => exact hpos _ _
    | vToI t => exact hpos _ (fresh p t)
    | brk t => exact hbrk _ _
    | _ => rfl
  · intro a p h1 h2 h3 hp
    cases a with
    | levels t' => exact .inr (.inr rfl)
    | plus t' => exact .inr (.inl rfl)
    | text t' =>
      have e1 : (Act.tweak (.text t') p).cruiseTo = p.cruiseTo := by
        show (p.appendBreakText t'.text).cruiseTo = _
        unfold Record.appendBreakText; split <;> rfl
      have e2 : (Act.tweak (.text t') p).cruiseToSi = p.cruiseToSi := by
        show (p.appendBreakText t'.text).cruiseToSi = _
        unfold Record.appendBreakText; split <;> rfl
      rw [e1, e2]; exact hp
    | _ => exact hp

/-- **C33** Where the cruise-to text of an element is a level, its SI value is the nearest whole number of metres. -/
theorem c33_cruise (L : Rounded F) {frames : Nat} {tokens : Tokens} {b : Bool} {e' : Ers F}
    (h : parseF15 frames Ers.new tokens = .ok (b, e')) {r : Record F} (hr : r ∈ e'.elements) (hl : Level r.cruiseTo) :
    |(r.cruiseToSi : ℝ) - metres r.cruiseTo| < 1 / 2 := by
  have key : r.cruiseTo = [] ∨ r.cruiseTo = py! "PLUS" ∨ r.cruiseToSi = levelSi F r.cruiseTo := by
    rcases parse_cases new_ne h with ⟨_, _, rfl⟩ | ⟨t, rest, e1, htt, hrun, hne, _, rfl⟩
    · have hr' : r ∈ [adepRec F, adesRec []] := hr
      have : r = adepRec F ∨ r = adesRec (F := F) [] := by simpa using hr'
      rcases this with rfl | rfl <;> exact .inl rfl
    · obtain ⟨ts1, hs⟩ := hrun.start (by simp)
      have h1 := Star.elem_inv (cruise_inv (F := F) (t :: rest)) hs new_ne (by
        intro r hr
        rw [new_recs] at hr
        rw [List.mem_singleton.1 hr]; exact .inl rfl)
      dsimp only at h1
      have h2 : ∀ r ∈ (post t e1).recs, r.cruiseTo = [] ∨ r.cruiseTo = py! "PLUS" ∨ r.cruiseToSi = levelSi F r.cruiseTo := by
        obtain ⟨l, o, h3⟩ := split_last _ hne
        rw [post_recs t e1 l o h3]
        rw [h3] at h1
        intro r hr
        rcases List.mem_append.1 hr with hr | hr
        · exact h1 r (by simp [hr])
        · have ho := h1 o (by simp)
          rw [List.mem_singleton.1 hr]
          split <;> exact ho
      rw [fin_elements] at hr
      rcases List.mem_append.1 hr with hr | hr
      · exact h2 r (List.mem_reverse.1 hr)
      · rw [List.mem_singleton.1 hr]; exact .inl rfl
  rcases key with hk | hk | hk
  · rw [hk] at hl
    rcases hl with ⟨_, _, _, hx, _⟩ | ⟨_, _, _, hx, _⟩ <;> cases hx
  · rw [hk] at hl
    rcases hl with ⟨u, _, hu, hx, _⟩ | ⟨u, _, hu, hx, _⟩ <;>
    · rw [← (List.cons.inj hx).1] at hu
      exact absurd hu (by decide)
  · rw [hk]; exact level_metres L hl

/-- A cruise climb to a level. -/
example : check (py! "N0450F350 AAA C/BBB/N0450F350F370 DEF") (fun b e => b && decide
    (e.elements.map (fun r => (r.cruiseTo, r.cruiseToSi)) = [([], 0), ([], 0), (py! "F370", 11278), ([], 0), ([], 0)])) = true := by
  decide +kernel

/-- **C33** The metres of a level do not depend on how floats are rounded. -/
theorem c33_same {G : Type} [PyFloat G] (L : Rounded F) (L' : Rounded G) {frames frames' : Nat} {tokens tokens' : Tokens} {b b' : Bool}
    {e : Ers F} {e' : Ers G} (h : parseF15 frames Ers.new tokens = .ok (b, e)) (h' : parseF15 frames' Ers.new tokens' = .ok (b', e'))
    {r : Record F} {r' : Record G} (hr : r ∈ e.elements) (hr' : r' ∈ e'.elements) (heq : r.altitude = r'.altitude) :
    r.altitudeSi = r'.altitudeSi := by
  rcases c33 L h hr with ⟨h1, h2⟩ | ⟨h1, h2⟩
  · rcases c33 L' h' hr' with ⟨h3, h4⟩ | ⟨h3, h4⟩
    · rw [h2, h4]
    · rw [← heq, h1] at h3
      rcases h3 with ⟨_, _, _, hx, _⟩ | ⟨_, _, _, hx, _⟩ <;> cases hx
  · rcases c33 L' h' hr' with ⟨h3, h4⟩ | ⟨h3, h4⟩
    · rw [heq, h3] at h1
      rcases h1 with ⟨_, _, _, hx, _⟩ | ⟨_, _, _, hx, _⟩ <;> cases hx
    · rw [heq] at h2
      obtain ⟨a1, a2⟩ := abs_lt.1 h2
      obtain ⟨a3, a4⟩ := abs_lt.1 h4
      have w1 : ((r.altitudeSi - r'.altitudeSi : Int) : ℝ) < 1 := by push_cast; linarith
      have w2 : (-1 : ℝ) < ((r.altitudeSi - r'.altitudeSi : Int) : ℝ) := by push_cast; linarith
      have w1' : r.altitudeSi - r'.altitudeSi < 1 := by exact_mod_cast w1
      have w2' : -1 < r.altitudeSi - r'.altitudeSi := by exact_mod_cast w2
      omega

/-- The laws are those of an existing arithmetic: double precision, and exact arithmetic. -/
example : Nonempty (Rounded Double) ∧ Nonempty (Rounded Exact) := ⟨⟨Rounded.double⟩, ⟨Rounded.exact⟩⟩

/-! ### C34 -/

/-- **C34** Every element of a parse has no speed, or its speed text is a speed and its SI speed is the nearest whole number of metres per
second at its SI altitude, which is not negative. For Mach numbers the calculated speed is used, which may be wrong by 0.002 m/s: the
speed of Mach 0.50 at altitude 0 lies exactly between two whole numbers. -/
theorem c34 (L : Rounded F) {frames : Nat} {tokens : Tokens} {b : Bool} {e' : Ers F}
    (h : parseF15 frames Ers.new tokens = .ok (b, e')) {r : Record F} (hr : r ∈ e'.elements) :
    (r.speed = [] ∧ r.speedSi = 0) ∨
    (Speed r.speed ∧ 0 ≤ r.altitudeSi ∧
      (r.speed.head? ≠ some 'M' → |(r.speedSi : ℝ) - metresPerSecond r.speed r.altitudeSi| < 1 / 2) ∧
      |(r.speedSi : ℝ) - metresPerSecond r.speed r.altitudeSi| < 1 / 2 + 2 / 1000) := by
  rcases ((parse_cause h).2.2 r hr).1 with hq | ⟨sp, lv, hs, hl, hq⟩
  · simp only [quad, Prod.mk.injEq] at hq
    exact .inl ⟨hq.1, hq.2.1⟩
  · simp only [quad, quadOf, Prod.mk.injEq] at hq
    obtain ⟨h1, h2, h3, h4⟩ := hq
    rw [h1, h2, h4]
    have h0 := level_nonneg L hl
    have := speed_metres L hs h0
    refine .inr ⟨hs, h0, fun hm => by rwa [if_neg hm] at this, ?_⟩
    split at this
    · exact this
    · exact this.trans (by norm_num)

/-- Knots, km/h, and Mach 0.82 at FL 350: 0.82 times 296.5 m/s. -/
example : check (py! "N0450F350 ABC/K0830F350 DEF/M082F350") (fun b e => b && decide
    (e.elements.map (fun r => (r.speed, r.speedSi)) =
      [(py! "N0450", 231), (py! "K0830", 231), (py! "M082", 243), ([], 0)])) = true := by
  decide +kernel

/-! ### C35 -/

/-- **C35** The calculated speed of sound is the same at all altitudes from 11000 m up (whatever the floats are). -/
theorem c35_constant {a b : Int} (ha : 11000 ≤ a) (hb : 11000 ≤ b) :
    Utils.speedOfSoundAtAltitude (F := F) a = Utils.speedOfSoundAtAltitude b := by
  have key : ∀ c : Int, 11000 ≤ c → (if c > 11000 then 11000 else c) = 11000 := by
    intro c hc; split <;> omega
  rw [sound_eq, sound_eq, key a ha, key b hb]

/-- **C35** The calculated speed of sound is within 0.000002 m/s of the modelled one and lies between 289 and 342 m/s. -/
theorem c35_value (L : Rounded F) {a : Int} (h : 0 ≤ a) :
    L.fin (Utils.speedOfSoundAtAltitude (F := F) a) ∧ |L.val (Utils.speedOfSoundAtAltitude (F := F) a) - soundSpeed a| ≤ 2 / 10 ^ 6 ∧
    289 < L.val (Utils.speedOfSoundAtAltitude (F := F) a) ∧ L.val (Utils.speedOfSoundAtAltitude (F := F) a) < 342 := by
  have h1 := near_sound L h
  obtain ⟨h2, h3⟩ := soundSpeed_range (a := a) (by exact_mod_cast h)
  obtain ⟨h4, h5⟩ := abs_le.1 h1.2
  refine ⟨h1.1, h1.2, ?_, ?_⟩ <;> linarith

/-- **C35** The calculated speed of sound does not increase with the altitude. -/
theorem c35_altitude (L : Rounded F) {a b : Int} (h : 0 ≤ a) (hab : a ≤ b) :
    L.val (Utils.speedOfSoundAtAltitude (F := F) b) ≤ L.val (Utils.speedOfSoundAtAltitude (F := F) a) :=
  sound_antitone L h hab

/-- **C35** Of two elements with Mach speeds, in one or in two parses, the one with the larger Mach number that is not higher has the
larger or the same SI speed. -/
theorem c35_mach (L : Rounded F) {frames frames' : Nat} {tokens tokens' : Tokens} {b b' : Bool} {e e' : Ers F}
    (h : parseF15 frames Ers.new tokens = .ok (b, e)) (h' : parseF15 frames' Ers.new tokens' = .ok (b', e'))
    {r r' : Record F} (hr : r ∈ e.elements) (hr' : r' ∈ e'.elements) {d d' : Str} (hs : r.speed = 'M' :: d) (hs' : r'.speed = 'M' :: d')
    (hn : numVal d ≤ numVal d') (ha : r'.altitudeSi ≤ r.altitudeSi) : r.speedSi ≤ r'.speedSi := by
  have facts : ∀ {frames : Nat} {tokens : Tokens} {b : Bool} {e : Ers F}, parseF15 frames Ers.new tokens = .ok (b, e) →
      ∀ {r : Record F}, r ∈ e.elements → ∀ {d : Str}, r.speed = 'M' :: d →
      r.speedSi = speedToSi (F := F) (py! "M") (numVal d) r.altitudeSi ∧ 0 ≤ r.altitudeSi ∧ numVal d ≤ 9999 := by
    intro frames tokens b e h r hr d hs
    rcases ((parse_cause h).2.2 r hr).1 with hq | ⟨sp, lv, hsp, hl, hq⟩
    · simp only [quad, Prod.mk.injEq] at hq
      rw [hq.1] at hs; cases hs
    · simp only [quad, quadOf, Prod.mk.injEq] at hq
      obtain ⟨h1, h2, h3, h4⟩ := hq
      rw [h1] at hs
      subst hs
      refine ⟨by rw [h2, h4]; rfl, by rw [h4]; exact level_nonneg L hl, ?_⟩
      rcases hsp with ⟨u, d', hu, hx, hd1, hd2⟩ | ⟨u, d', hu, hx, _⟩
      · have := (List.cons.inj hx).2
        subst this
        have := numVal_lt hd2
        rw [hd1] at this; omega
      · rw [← (List.cons.inj hx).1] at hu
        exact absurd hu (by decide)
  obtain ⟨f1, f2, f3⟩ := facts h hr hs
  obtain ⟨f4, f5, f6⟩ := facts h' hr' hs'
  rw [f1, f4]
  exact (mach_antitone L f3 f5 ha).trans (mach_mono L hn f6 f5)

/-- Mach 0.80 and 0.84 at FL 350, 0.84 at FL 200. -/
example : check (py! "M080F350 ABC/M084F350 DEF/M084F200") (fun b e => b && decide
    (e.elements.map (fun r => (r.altitudeSi, r.speedSi)) = [(10668, 237), (10668, 249), (6096, 265), (0, 0)])) = true := by
  decide +kernel

end F15
