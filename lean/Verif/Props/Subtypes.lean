import Verif.Props.Classify
import Verif.Spec.Subtypes
/-!
# C49: the subtype names the exact form of a token
-/

namespace F15
open Spec

set_option linter.unusedSectionVars false

/-- Check that the rows with subtype `u` have base `b` and, without clashes, exactly the words `ws`. -/
def subCheck (b : BaseType) (u : SubType) (ws : List (List Cls)) : Bool :=
  decide (u ≠ .UNKNOWN) && (table.all fun r => !decide (r.sub = u) || decide (r.base = b)) &&
  (overlapFree (fun r => r.sub = u) (postRows fun r => r.sub = u) &&
      (clash fun r => r.sub = u).isEmpty &&
      ((wordsOf (fun r => r.sub = u) table).all fun w => ws.any fun v => subW w v) &&
      (ws.all fun w => (wordsOf (fun r => r.sub = u) table).any fun v => subW w v))

theorem base_of_sub {b : BaseType} {u : SubType} (hu : u ≠ .UNKNOWN)
    (h : (table.all fun r => !decide (r.sub = u) || decide (r.base = b)) = true) (s : Str) :
    getTokenType s = (b, u) ↔ (getTokenType s).2 = u := by
  constructor
  · intro h; rw [h]
  · intro h1
    rcases type_row s with h2 | ⟨r, hr, h2, _⟩
    · rw [h2] at h1; exact absurd h1.symm hu
    · have := List.all_eq_true.1 h r hr
      rw [h2] at h1 ⊢
      rw [show r.sub = u from h1] at this ⊢
      simp at this
      rw [this]

theorem pair_iff {b : BaseType} {u : SubType} {ws : List (List Cls)} (h : subCheck b u ws = true) (s : Str) :
    getTokenType s = (b, u) ↔ Any ws s := by
  unfold subCheck at h
  rw [Bool.and_eq_true, Bool.and_eq_true, decide_eq_true_eq] at h
  rw [base_of_sub h.1.1 h.1.2]
  exact sub_iff' u h.1.1 ws h.2 s

theorem any_one (w : List Cls) (s : Str) : Any [w] s ↔ wm w s = true := by simp [Any]

/-- Word of SPEED/LEVEL. -/
def slW (k : Char × Char) : List Cls :=
  (kC k.1 :: List.replicate (speedDigits k.1) kD) ++ (kC k.2 :: List.replicate (levelDigits k.2) kD)

theorem sl_iff (k : Char × Char) (s : Str) : SpeedLevelOf k s ↔ wm (slW k) s = true := by
  unfold SpeedLevelOf slW
  rw [wm_append]
  simp only [unit1_iff]

theorem slp_iff (k : Char × Char) (s : Str) : SpeedLevelPlusOf k s ↔ wm (slW k ++ litW (py! "PLUS")) s = true := by
  unfold SpeedLevelPlusOf
  rw [wm_append]
  simp only [sl_iff, lit_iff]
  constructor
  · rintro ⟨a, rfl, h⟩; exact ⟨a, _, rfl, h, rfl⟩
  · rintro ⟨a, _, rfl, h, rfl⟩; exact ⟨a, rfl, h⟩

theorem sv_iff (u : Char) (s : Str) : SpeedVfrOf u s ↔ wm ((kC u :: List.replicate (speedDigits u) kD) ++ litW (py! "VFR")) s = true := by
  unfold SpeedVfrOf
  rw [wm_append]
  simp only [unit1_iff, lit_iff]
  constructor
  · rintro ⟨a, rfl, h⟩; exact ⟨a, _, rfl, h, rfl⟩
  · rintro ⟨a, _, rfl, h, rfl⟩; exact ⟨a, rfl, h⟩

/-- **C49** The subtypes of SPEED/LEVEL name the units. -/
theorem c49_speed_level (p : (Char × Char) × SubType × SubType) (hp : p ∈ speedLevelSubtypes) (s : Str) :
    (getTokenType s = (.SPEED_ALTITUDE, p.2.1) ↔ SpeedLevelOf p.1 s) ∧
    (getTokenType s = (.SPEED_ALTITUDE_PLUS, p.2.2) ↔ SpeedLevelPlusOf p.1 s) := by
  have h : (speedLevelSubtypes.all fun p => subCheck .SPEED_ALTITUDE p.2.1 [slW p.1] &&
      subCheck .SPEED_ALTITUDE_PLUS p.2.2 [slW p.1 ++ litW (py! "PLUS")]) = true := by decide +kernel
  have h := List.all_eq_true.1 h p hp
  rw [Bool.and_eq_true] at h
  rw [pair_iff h.1, pair_iff h.2, any_one, any_one, sl_iff, slp_iff]
  exact ⟨Iff.rfl, Iff.rfl⟩

/-- **C49** The subtypes of SPEED/VFR name the unit of the speed. -/
theorem c49_speed_vfr (p : Char × SubType) (hp : p ∈ speedVfrSubtypes) (s : Str) :
    getTokenType s = (.SPEED_VFR, p.2) ↔ SpeedVfrOf p.1 s := by
  have h : (speedVfrSubtypes.all fun p => subCheck .SPEED_VFR p.2
      [(kC p.1 :: List.replicate (speedDigits p.1) kD) ++ litW (py! "VFR")]) = true := by decide +kernel
  have h := List.all_eq_true.1 h p hp
  rw [pair_iff h, any_one, sv_iff]

theorem one_letter (s : Str) : wm [kL] s = true ↔ ∃ c, Letter c ∧ s = [c] := by
  rw [wm_cons]
  constructor
  · rintro ⟨c, t, rfl, hc, ht⟩
    cases t with
    | nil => exact ⟨c, (has_kL c).1 hc, rfl⟩
    | cons => simp [wm] at ht
  · rintro ⟨c, hc, rfl⟩; exact ⟨c, [], rfl, (has_kL c).2 hc, rfl⟩

theorem one_digit (s : Str) : wm [kD] s = true ↔ ∃ c, Digit c ∧ s = [c] := by
  rw [wm_cons]
  constructor
  · rintro ⟨c, t, rfl, hc, ht⟩
    cases t with
    | nil => exact ⟨c, (has_kD c).1 hc, rfl⟩
    | cons => simp [wm] at ht
  · rintro ⟨c, hc, rfl⟩; exact ⟨c, [], rfl, (has_kD c).2 hc, rfl⟩

theorem lit_then (a : Str) (w : List Cls) (s : Str) : wm (litW a ++ w) s = true ↔ ∃ v, s = a ++ v ∧ wm w v = true := by
  rw [wm_append]
  simp only [lit_iff]
  constructor
  · rintro ⟨_, v, rfl, rfl, h⟩; exact ⟨v, rfl, h⟩
  · rintro ⟨v, rfl, h⟩; exact ⟨a, v, rfl, rfl, h⟩

/-- **C49** The tracks. -/
theorem c49_tracks (s : Str) :
    (getTokenType s = (.ROUTE, .NAT) ↔ NatTrack s) ∧ (getTokenType s = (.ROUTE, .PTS) ↔ PolarTrack s) := by
  rw [pair_iff (ws := [litW (py! "NAT") ++ [kL], litW (py! "NAT") ++ [kL, kD]]) (by decide +kernel),
    pair_iff (ws := [litW (py! "PTS") ++ [kL], litW (py! "PTS") ++ [kD]]) (by decide +kernel)]
  have two : ∀ v, wm [kL, kD] v = true ↔ ∃ c, Letter c ∧ ∃ d, Digit d ∧ v = [c, d] := by
    intro v
    rw [wm_cons]
    simp only [one_digit, has_kL]
    constructor
    · rintro ⟨c, _, rfl, hc, d, hd, rfl⟩; exact ⟨c, hc, d, hd, rfl⟩
    · rintro ⟨c, hc, d, hd, rfl⟩; exact ⟨c, [d], rfl, hc, d, hd, rfl⟩
  simp only [Any, List.mem_cons, List.not_mem_nil, or_false, exists_eq_or_imp, exists_eq_left, lit_then, one_letter, one_digit, two]
  constructor
  · constructor
    · rintro (⟨_, rfl, c, hc, rfl⟩ | ⟨_, rfl, c, hc, d, hd, rfl⟩)
      · exact ⟨c, hc, .inl rfl⟩
      · exact ⟨c, hc, .inr ⟨d, hd, rfl⟩⟩
    · rintro ⟨c, hc, rfl | ⟨d, hd, rfl⟩⟩
      · exact .inl ⟨_, rfl, c, hc, rfl⟩
      · exact .inr ⟨_, rfl, c, hc, d, hd, rfl⟩
  · constructor
    · rintro (⟨_, rfl, c, hc, rfl⟩ | ⟨_, rfl, c, hc, rfl⟩)
      · exact ⟨c, .inl hc, rfl⟩
      · exact ⟨c, .inr hc, rfl⟩
    · rintro ⟨c, hc | hc, rfl⟩
      · exact .inl ⟨_, rfl, c, hc, rfl⟩
      · exact .inr ⟨_, rfl, c, hc, rfl⟩

/-- Subtypes with clashes. -/
theorem pair_clash {b : BaseType} {u : SubType} {ws cl : List (List Cls)} (hu : u ≠ .UNKNOWN)
    (hb : (table.all fun r => !decide (r.sub = u) || decide (r.base = b)) = true)
    (ho : overlapFree (fun r => r.sub = u) (postRows fun r => r.sub = u) = true)
    (hw : (((wordsOf (fun r => r.sub = u) table).all fun w => ws.any fun v => subW w v) &&
      (ws.all fun w => (wordsOf (fun r => r.sub = u) table).any fun v => subW w v)) = true)
    (hc : clash (fun r => r.sub = u) = cl) (s : Str) :
    getTokenType s = (b, u) ↔ Any ws s ∧ ¬ Any cl s := by
  rw [base_of_sub hu hb, sub_iff u hu ho, any_equiv hw, hc]
  simp [Any]

/-- **C49** The ATS routes: `ATS_TURK` has three letters and three digits, `ATS_OLD` three letters and one or two digits (other
than a polar track), `ATS_RUS` four letters and one or two digits (other than `STAY` + digit or a North Atlantic track), and `ATS`
one or two letters, digits and possibly a letter. -/
theorem c49_routes (s : Str) :
    (getTokenType s = (.ROUTE, .ATS_TURK) ↔ LDL (3, 3, 0) s) ∧
    (getTokenType s = (.ROUTE, .ATS_OLD) ↔ (LDL (3, 1, 0) s ∨ LDL (3, 2, 0) s) ∧ ¬ PolarTrack s) ∧
    (getTokenType s = (.ROUTE, .ATS_RUS) ↔ (LDL (4, 1, 0) s ∨ LDL (4, 2, 0) s) ∧ ¬ NatTrack s ∧
      ¬ ∃ c, Digit c ∧ s = py! "STAY" ++ [c]) ∧
    (getTokenType s = (.ROUTE, .ATS) ↔ ∃ f ∈ atsFormats, LDL f s) := by
  have stay : (∃ c, Digit c ∧ s = py! "STAY" ++ [c]) ↔ wm (litW (py! "STAY") ++ [kD]) s = true := by
    rw [lit_then]
    simp only [one_digit]
    constructor
    · rintro ⟨c, hc, rfl⟩; exact ⟨_, rfl, c, hc, rfl⟩
    · rintro ⟨_, rfl, c, hc, rfl⟩; exact ⟨c, hc, rfl⟩
  have excl : ∀ {w v : List Cls}, disjW w v = true → wm w s = true → wm v s = false := by
    intro w v h h1
    cases h2 : wm v s with
    | false => rfl
    | true => exact absurd ⟨h1, h2⟩ (disjW_sound h s)
  have nat := (c49_tracks s).1
  rw [pair_iff (ws := [litW (py! "NAT") ++ [kL], litW (py! "NAT") ++ [kL, kD]]) (by decide +kernel)] at nat
  have pts := (c49_tracks s).2
  rw [pair_iff (ws := [litW (py! "PTS") ++ [kL], litW (py! "PTS") ++ [kD]]) (by decide +kernel)] at pts
  refine ⟨?_, ?_, ?_, ?_⟩
  · rw [pair_clash (u := .ATS_TURK) (ws := [ldlW (3, 3, 0), ldlW (1, 3, 1)]) (cl := [ldlW (1, 1, 1), ldlW (1, 2, 1), ldlW (1, 3, 1)].filter
      fun w => w.length = 5) (by decide) (by decide +kernel) (by decide +kernel) (by decide +kernel) (by decide +kernel), ldl_iff]
    simp only [Any]
    constructor
    · rintro ⟨⟨w, hw, hs⟩, hc⟩
      simp only [List.mem_cons, List.not_mem_nil, or_false] at hw
      rcases hw with rfl | rfl
      · exact hs
      · exact absurd ⟨_, by decide, hs⟩ hc
    · intro hs
      refine ⟨⟨_, by simp, hs⟩, ?_⟩
      rintro ⟨w, hw, h⟩
      have hw : w = ldlW (1, 3, 1) := by
        have : ([ldlW (1, 1, 1), ldlW (1, 2, 1), ldlW (1, 3, 1)].filter fun w => w.length = 5) = [ldlW (1, 3, 1)] := by decide
        rw [this] at hw; simpa using hw
      subst hw
      rw [excl (w := ldlW (3, 3, 0)) (by decide) hs] at h; cases h
  · rw [pair_clash (u := .ATS_OLD) (ws := [ldlW (3, 1, 0), ldlW (3, 2, 0)]) (cl := [litW (py! "PTS") ++ [kD]])
      (by decide) (by decide +kernel) (by decide +kernel) (by decide +kernel) (by decide +kernel), ← pts, ldl_iff, ldl_iff]
    simp only [Any, List.mem_cons, List.not_mem_nil, or_false, exists_eq_or_imp, exists_eq_left]
    refine and_congr_right fun h => not_congr ⟨.inr, fun h1 => h1.resolve_left ?_⟩
    rcases h with h | h
    · rw [excl (by decide +kernel) h]; simp
    · rw [excl (by decide +kernel) h]; simp
  · rw [pair_clash (u := .ATS_RUS) (ws := [ldlW (4, 1, 0), ldlW (4, 2, 0)])
      (cl := [litW (py! "STAY") ++ [kD], litW (py! "NAT") ++ [kL, kD]])
      (by decide) (by decide +kernel) (by decide +kernel) (by decide +kernel) (by decide +kernel), ← nat, stay, ldl_iff, ldl_iff]
    simp only [Any, List.mem_cons, List.not_mem_nil, or_false, exists_eq_or_imp, exists_eq_left, not_or]
    refine and_congr_right fun h => ?_
    have : wm (litW (py! "NAT") ++ [kL]) s = false := by
      rcases h with h | h
      · exact excl (by decide +kernel) h
      · exact excl (by decide +kernel) h
    rw [this]
    simp [and_comm]
  · rw [pair_iff (ws := atsFormats.map ldlW) (by decide +kernel), formats_iff]

theorem pointShape_short {s : Str} (h : PointShape s) (hl : s.length ≤ 5) : NamedPoint s := by
  have len : ∀ n a, Digits n a → a.length = n := fun n a h => h.1
  rcases h with h | ⟨n, a, b, rfl, _, _, _, h⟩ | ⟨d, x, e, k, rfl, h1, _, h2, _⟩ | ⟨d, x, e, k, rfl, h1, _, h2, _⟩ |
    ⟨a, b, rfl, _, h⟩ | ⟨a, b, rfl, _, h⟩
  · exact h
  all_goals
    simp only [List.length_append, List.length_cons] at hl
    first
    | (have := len _ _ h; omega)
    | (have := len _ _ h1; have := len _ _ h2; omega)

/-- **C49** A named point of four letters is an aerodrome, any other a published route point. -/
theorem c49_named_points (s : Str) :
    (getTokenType s = (.POINT, .PRP_AERO) ↔ NamedPoint s ∧ s.length = 4) ∧
    (getTokenType s = (.POINT, .PRP) ↔ NamedPoint s ∧ s.length ≠ 4) := by
  have tbl : (table.all fun r => r.words.all fun w => (!decide (r.sub = .PRP_AERO) || decide (w.length = 4)) &&
      (!decide (r.sub = .PRP) || decide (w.length ≤ 5 ∧ w.length ≠ 4)) &&
      (!decide (r.base = .POINT ∧ w.length ≤ 5) || decide (r.sub = if w.length = 4 then .PRP_AERO else .PRP))) = true := by
    decide +kernel
  have key : ∀ u, getTokenType s = (.POINT, u) → PointShape s := fun u h => (c10_point s).1 (by rw [h])
  have short : NamedPoint s → s.length ≤ 5 := by rintro ⟨⟨n, _, h2, h3⟩, _⟩; rw [h3.1]; exact h2
  have conv : NamedPoint s → getTokenType s = (.POINT, if s.length = 4 then .PRP_AERO else .PRP) := by
    intro h
    have hb := (c10_point s).2 (.inl h)
    rcases type_row s with h2 | ⟨r, hr, h2, w, hw, hs⟩
    · rw [h2] at hb; cases hb
    · rw [h2] at hb ⊢
      have hb : r.base = .POINT := hb
      have h3 := List.all_eq_true.1 (List.all_eq_true.1 tbl r hr) w hw
      have hl := short h
      rw [wm_length hs] at hl ⊢
      rw [Bool.and_eq_true] at h3
      have h4 := h3.2
      simp only [hb, hl, and_self, decide_true, Bool.not_true, Bool.false_or, decide_eq_true_eq] at h4
      rw [hb, h4]
  have fwd : ∀ u, getTokenType s = (.POINT, u) → ∃ w : List Cls, s.length = w.length ∧ (u = .PRP_AERO → w.length = 4) ∧
      (u = .PRP → w.length ≤ 5 ∧ w.length ≠ 4) := by
    intro u h
    rcases type_row s with h2 | ⟨r, hr, h2, w, hw, hs⟩
    · rw [h2] at h; cases h
    · rw [h2] at h
      have h3 := List.all_eq_true.1 (List.all_eq_true.1 tbl r hr) w hw
      have hu : r.sub = u := congrArg Prod.snd h
      rw [Bool.and_eq_true, Bool.and_eq_true, hu] at h3
      refine ⟨w, wm_length hs, ?_, ?_⟩
      · rintro rfl; simpa using h3.1.1
      · rintro rfl; simpa using h3.1.2
  refine ⟨⟨fun h => ?_, fun h => ?_⟩, ⟨fun h => ?_, fun h => ?_⟩⟩
  · obtain ⟨w, h1, h2, _⟩ := fwd _ h
    have h2 := h2 rfl
    exact ⟨pointShape_short (key _ h) (by omega), by omega⟩
  · rw [conv h.1, if_pos h.2]
  · obtain ⟨w, h1, _, h2⟩ := fwd _ h
    have h2 := h2 rfl
    exact ⟨pointShape_short (key _ h) (by omega), by omega⟩
  · rw [conv h.1, if_neg h.2]

/-- **C49** Every other base type comes with one subtype: designators of SIDs and STARs are typed `STAR`, the literal words `SID` and
`STAR` have subtypes of their own, and the rest is named like the base type. -/
theorem c49_single (s : Str) :
    ((getTokenType s).1 = .SID_STAR ↔ getTokenType s = (.SID_STAR, .STAR)) ∧
    ((getTokenType s).1 = .SID ↔ getTokenType s = (.SID, .SID_LITERAL)) ∧
    ((getTokenType s).1 = .STAR ↔ getTokenType s = (.STAR, .STAR_LITERAL)) ∧
    ((getTokenType s).1 = .SLASH ↔ getTokenType s = (.SLASH, .SLASH)) ∧
    ((getTokenType s).1 = .DCT ↔ getTokenType s = (.DCT, .DCT)) ∧
    ((getTokenType s).1 = .STAY ↔ getTokenType s = (.STAY, .STAY)) ∧
    ((getTokenType s).1 = .STAY_TIME ↔ getTokenType s = (.STAY_TIME, .STAY_TIME)) ∧
    ((getTokenType s).1 = .TRUNCATE ↔ getTokenType s = (.TRUNCATE, .TRUNCATE)) ∧
    ((getTokenType s).1 = .C ↔ getTokenType s = (.C, .C)) := by
  have key : ∀ b u, b ≠ BaseType.UNKNOWN → (table.all fun r => !decide (r.base = b) || decide (r.sub = u)) = true →
      ((getTokenType s).1 = b ↔ getTokenType s = (b, u)) := by
    intro b u hb h
    constructor
    · intro h1
      rcases type_row s with h2 | ⟨r, hr, h2, _⟩
      · rw [h2] at h1; exact absurd h1.symm hb
      · have := List.all_eq_true.1 h r hr
        rw [h2] at h1 ⊢
        rw [show r.base = b from h1] at this ⊢
        simp at this
        rw [this]
    · intro h1; rw [h1]
  refine ⟨?_, ?_, ?_, ?_, ?_, ?_, ?_, ?_, ?_⟩ <;> exact key _ _ (by decide) (by decide +kernel)

/-- **C49** All subtypes of a base type are covered by the statements above and those of C10 and C11. -/
theorem c49_complete (s : Str) (h : (getTokenType s).1 ≠ .UNKNOWN) : (getTokenType s).2 ∈ Spec.allSubtypes := by
  rcases type_row s with h2 | ⟨r, hr, h2, _⟩
  · rw [h2] at h; exact absurd rfl h
  · have : (table.all fun r => Spec.allSubtypes.contains r.sub) = true := by decide +kernel
    rw [h2]
    simpa only [List.contains_iff_mem] using List.all_eq_true.1 this r hr

/-- The forms are inhabited and told apart. -/
example : getTokenType (py! "PTS9") = (.ROUTE, .PTS) ∧ getTokenType (py! "PTT9") = (.ROUTE, .ATS_OLD) ∧
    getTokenType (py! "NATB5") = (.ROUTE, .NAT) ∧ getTokenType (py! "NATBB5") = (.SID_STAR, .STAR) ∧
    getTokenType (py! "LFPG") = (.POINT, .PRP_AERO) ∧ getTokenType (py! "LFP") = (.POINT, .PRP) ∧
    getTokenType (py! "M082F350PLUS") = (.SPEED_ALTITUDE_PLUS, .SPEED_ALTITUDE_MF_P) := by decide +kernel

end F15
