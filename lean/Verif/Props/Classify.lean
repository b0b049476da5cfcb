import Verif.Lemmas.Classify
/-!
# C07–C11: token classification

`getTokenType s` is the pair (base type, subtype) given to a token text; `assignSyntax` is the loop body
of `assign_syntax_descriptions`, which additionally flags over-long tokens.
-/

namespace F15
open Spec

/-- The string matches the whole pattern of row `r`. -/
def MatchesRow (r : Row) (s : Str) : Prop := ∃ re, parseRe r.pattern = some re ∧ Lang re s

theorem matchesRow_iff (r : Row) (s : Str) : MatchesRow r s ↔ r.fullmatch s = true := by
  unfold MatchesRow Row.fullmatch
  cases parseRe r.pattern with
  | none => simp
  | some re => simp [fullmatch_iff]

/-- **C07** Every configuration pattern is a valid regular expression. -/
theorem c07_patterns_valid (r : Row) (hr : r ∈ table) : ∃ re, parseRe r.pattern = some re := by
  have := List.all_eq_true.1 all_patterns_parse r hr
  exact Option.isSome_iff_exists.1 this

/-- **C07** A token gets the types of the first row (in table order) whose language contains it. -/
theorem c07_first_match (s : Str) (b : BaseType) (u : SubType) (hb : (b, u) ≠ (.UNKNOWN, .UNKNOWN)) :
    getTokenType s = (b, u) ↔
      ∃ pre r post, table = pre ++ r :: post ∧ MatchesRow r s ∧ (∀ q ∈ pre, ¬ MatchesRow q s) ∧
        r.base = b ∧ r.sub = u := by
  simp only [matchesRow_iff]
  unfold getTokenType
  constructor
  · intro h
    split at h
    · rename_i r hr
      obtain ⟨hm, pre, post, he, hp⟩ := List.find?_eq_some_iff_append.1 hr
      simp only [Prod.mk.injEq] at h
      exact ⟨pre, r, post, he, by simpa using hm, fun q hq => by simpa using hp q hq, h.1, h.2⟩
    · exact absurd h.symm hb
  · rintro ⟨pre, r, post, he, hm, hp, rfl, rfl⟩
    have : table.find? (fun r => r.fullmatch s) = some r :=
      List.find?_eq_some_iff_append.2 ⟨by simpa using hm, pre, post, he, fun q hq => by simpa using hp q hq⟩
    rw [this]

/-- **C07** A token is UNKNOWN exactly when no row matches it. -/
theorem c07_unknown (s : Str) :
    getTokenType s = (.UNKNOWN, .UNKNOWN) ↔ ∀ r ∈ table, ¬ MatchesRow r s := by
  simp only [matchesRow_iff]
  unfold getTokenType
  constructor
  · intro h
    split at h
    · rename_i r hr
      have hmem := List.mem_of_find?_eq_some hr
      have := List.all_eq_true.1 table_no_unknown r hmem
      simp only [Prod.mk.injEq] at h
      simp [h.1] at this
    · rename_i hn
      intro r hr
      simpa using List.find?_eq_none.1 hn r hr
  · intro h
    have : table.find? (fun r => r.fullmatch s) = none := List.find?_eq_none.2 fun r hr => by simpa using h r hr
    rw [this]

/-- **C07** UNKNOWN base type and UNKNOWN subtype coincide. -/
theorem c07_unknown_base (s : Str) :
    (getTokenType s).1 = .UNKNOWN ↔ getTokenType s = (.UNKNOWN, .UNKNOWN) := by
  constructor
  · intro h
    rcases type_row s with h1 | ⟨r, hr, he, _⟩
    · exact h1
    · have := List.all_eq_true.1 table_no_unknown r hr
      rw [he] at h
      simp only at h
      simp [h] at this
  · intro h; rw [h]

/-- A token matching two rows (`VFR` is also a string of three letters): the first one counts. -/
example : getTokenType (py! "VFR") = (.BREAK_START, .VFR) ∧ getTokenType (py! "VFRX") = (.POINT, .PRP_AERO) := by
  decide +kernel

/-- No word of the table is longer than 17. -/
theorem table_max_length : (table.all fun r => r.words.all fun w => decide (w.length ≤ 17)) = true := by
  decide +kernel

theorem length_le_17 (s : Str) (h : (getTokenType s).1 ≠ .UNKNOWN) : s.length ≤ 17 := by
  rcases type_row s with h1 | ⟨r, hr, _, w, hw, hs⟩
  · rw [h1] at h; simp at h
  · have := List.all_eq_true.1 (List.all_eq_true.1 table_max_length r hr) w hw
    rw [wm_length hs]
    simpa using this

theorem assignSyntax_eq (t : Token) : assignSyntax t =
    if t.text.length > 25 then { t with base := .TOO_LONG, sub := .UNKNOWN }
    else { t with base := (getTokenType t.text).1, sub := (getTokenType t.text).2 } := rfl

/-- **C08** After type assignment, a token has base type TOO_LONG iff its text has more than 25 characters
(whatever types it had before). -/
theorem c08_too_long (t : Token) : (assignSyntax t).base = .TOO_LONG ↔ t.text.length > 25 := by
  rw [assignSyntax_eq]
  split
  · rename_i h
    simp only [true_iff]; exact h
  · rename_i h
    simp only
    refine ⟨fun hb => ?_, fun hl => absurd hl h⟩
    rcases type_row t.text with h1 | ⟨r, hr, he, _⟩
    · rw [h1] at hb; simp at hb
    · have := List.all_eq_true.1 table_no_unknown r hr
      rw [he] at hb
      simp only at hb
      simp [hb] at this

/-- **C08** A token of more than 17 characters is never recognised: up to 25 characters it is UNKNOWN. -/
theorem c08_unknown_above_17 (t : Token) (h : t.text.length > 17) (h' : t.text.length ≤ 25) :
    (assignSyntax t).base = .UNKNOWN ∧ (assignSyntax t).sub = .UNKNOWN := by
  have : (getTokenType t.text).1 = .UNKNOWN := by
    refine Decidable.byContradiction fun hn => ?_
    have := length_le_17 _ hn
    omega
  have := (c07_unknown_base _).1 this
  rw [assignSyntax_eq, if_neg (by omega), this]
  exact ⟨rfl, rfl⟩

/-- **C08** Texts of at most 25 characters get exactly the table's types. -/
theorem c08_short (t : Token) (h : t.text.length ≤ 25) :
    ((assignSyntax t).base, (assignSyntax t).sub) = getTokenType t.text := by
  rw [assignSyntax_eq, if_neg (by omega)]

/-- **C08** Type assignment changes neither number, order, texts nor positions of the tokens. -/
theorem c08_preserves (ts : Tokens) :
    (assignSyntaxDescriptions ts).toks.map (fun t => (t.text, t.start, t.stop)) =
      ts.toks.map (fun t => (t.text, t.start, t.stop)) := by
  simp only [assignSyntaxDescriptions, List.map_map]
  apply List.map_congr_left
  intro t _
  simp only [Function.comp, assignSyntax]
  split <;> rfl

/-- The bound 17 is attained: a lat/long with bearing and distance. -/
example : getTokenType (py! "5200N00500E120045") = (.POINT, .LLBD_MIN) ∧ (py! "5200N00500E120045").length = 17 := by
  decide +kernel

/-- Both sides of the limit 25. -/
example : (assignSyntax (Token.new (List.replicate 25 'A') 0 25)).base = .UNKNOWN ∧
    (assignSyntax (Token.new (List.replicate 26 'A') 0 26)).base = .TOO_LONG := by decide +kernel

/-- Every class of the table apart from that of the slash lies within A–Z, 0–9. -/
theorem table_alphabet :
    (table.all fun r => decide (r.pattern = py! "/") ||
      r.words.all fun w => w.all fun k => k.sub [('A', 'Z'), ('0', '9')]) = true := by decide +kernel

/-- **C09** A token with a character other than `A`–`Z`, `0`–`9` is not recognised, except for `/`. -/
theorem c09_foreign (s : Str) (c : Char) (hc : c ∈ s) (hl : ¬ Letter c) (hd : ¬ Digit c) (hs : s ≠ ['/']) :
    getTokenType s = (.UNKNOWN, .UNKNOWN) := by
  rcases type_row s with h1 | ⟨r, hr, _, w, hw, hws⟩
  · exact h1
  · exfalso
    have h := List.all_eq_true.1 table_alphabet r hr
    rw [Bool.or_eq_true] at h
    rcases h with h | h
    · have h : r.pattern = py! "/" := by simpa using h
      have : r.words = [[[('/', '/')]]] := by
        unfold Row.words; rw [h]; decide +kernel
      rw [this] at hw
      obtain rfl : w = litW ['/'] := by
        rw [List.mem_singleton] at hw; exact hw
      exact hs ((lit_iff _ _).1 hws)
    · obtain ⟨k, hk, hkc⟩ := wm_mem hws hc
      have hsub := List.all_eq_true.1 (List.all_eq_true.1 h w hw) k hk
      have := Cls.sub_sound hsub hkc
      simp only [Cls.has, List.any_cons, List.any_nil, Bool.or_false, Bool.or_eq_true, Bool.and_eq_true,
        decide_eq_true_eq] at this
      rcases this with h | h
      · exact hl h
      · exact hd h

/-- **C09** After type assignment such a token is UNKNOWN or TOO_LONG. -/
theorem c09_foreign_token (t : Token) (c : Char) (hc : c ∈ t.text) (hl : ¬ Letter c) (hd : ¬ Digit c)
    (hs : t.text ≠ ['/']) : (assignSyntax t).base = .UNKNOWN ∨ (assignSyntax t).base = .TOO_LONG := by
  have := c09_foreign t.text c hc hl hd hs
  rw [assignSyntax_eq, this]
  split
  · exact .inr rfl
  · exact .inl rfl

/-- Lower case letters are foreign characters. -/
example : getTokenType (py! "pNT") = (.UNKNOWN, .UNKNOWN) :=
  c09_foreign _ 'p' (by decide) (by unfold Letter; decide) (by unfold Digit; decide) (by decide)

/-! ### C10 -/

theorem base_iff (b : BaseType) (hb : b ≠ .UNKNOWN)
    (h : overlapFree (fun r => r.base = b) (postRows fun r => r.base = b) = true) (s : Str) :
    (getTokenType s).1 = b ↔
      Any (wordsOf (fun r => r.base = b) table) s ∧ ∀ w ∈ clash (fun r => r.base = b), wm w s = false := by
  have h1 := type_of_row s (fun q => q.1 = b) (by simpa using Ne.symm hb)
  have h2 := row_iff (fun r => r.base = b) h s
  simp only [decide_eq_true_eq] at h1 h2
  rw [h1, h2]; rfl

theorem sub_iff (b : SubType) (hb : b ≠ .UNKNOWN)
    (h : overlapFree (fun r => r.sub = b) (postRows fun r => r.sub = b) = true) (s : Str) :
    (getTokenType s).2 = b ↔
      Any (wordsOf (fun r => r.sub = b) table) s ∧ ∀ w ∈ clash (fun r => r.sub = b), wm w s = false := by
  have h1 := type_of_row s (fun q => q.2 = b) (by simpa using Ne.symm hb)
  have h2 := row_iff (fun r => r.sub = b) h s
  simp only [decide_eq_true_eq] at h1 h2
  rw [h1, h2]; rfl

/-- Base type without clashes: exactly the union of the words. -/
theorem base_iff' (b : BaseType) (hb : b ≠ .UNKNOWN) (ws : List (List Cls))
    (h : (overlapFree (fun r => r.base = b) (postRows fun r => r.base = b) &&
      (clash fun r => r.base = b).isEmpty &&
      ((wordsOf (fun r => r.base = b) table).all fun w => ws.any fun v => subW w v) &&
      (ws.all fun w => (wordsOf (fun r => r.base = b) table).any fun v => subW w v)) = true) (s : Str) :
    (getTokenType s).1 = b ↔ Any ws s := by
  rw [Bool.and_eq_true, Bool.and_eq_true, Bool.and_eq_true] at h
  rw [base_iff b hb h.1.1.1, any_equiv (by rw [Bool.and_eq_true]; exact ⟨h.1.2, h.2⟩)]
  have : (clash fun r => r.base = b) = [] := by simpa using h.1.1.2
  rw [this]; simp

/-- Subtype without clashes. -/
theorem sub_iff' (b : SubType) (hb : b ≠ .UNKNOWN) (ws : List (List Cls))
    (h : (overlapFree (fun r => r.sub = b) (postRows fun r => r.sub = b) &&
      (clash fun r => r.sub = b).isEmpty &&
      ((wordsOf (fun r => r.sub = b) table).all fun w => ws.any fun v => subW w v) &&
      (ws.all fun w => (wordsOf (fun r => r.sub = b) table).any fun v => subW w v)) = true) (s : Str) :
    (getTokenType s).2 = b ↔ Any ws s := by
  rw [Bool.and_eq_true, Bool.and_eq_true, Bool.and_eq_true] at h
  rw [sub_iff b hb h.1.1.1, any_equiv (by rw [Bool.and_eq_true]; exact ⟨h.1.2, h.2⟩)]
  have : (clash fun r => r.sub = b) = [] := by simpa using h.1.1.2
  rw [this]; simp

/-- **C10** A token is a SPEED/LEVEL iff it is a speed followed by a level. -/
theorem c10_speed_level (s : Str) : (getTokenType s).1 = .SPEED_ALTITUDE ↔ SpeedLevel s := by
  rw [base_iff' .SPEED_ALTITUDE (by decide) (prodW speedW levelW) (by decide +kernel), any_prod]
  simp only [SpeedLevel, speed_iff, level_iff]

/-- **C10** A token is a SPEED/VFR iff it is a speed followed by `VFR`. -/
theorem c10_speed_vfr (s : Str) : (getTokenType s).1 = .SPEED_VFR ↔ SpeedVfr s := by
  rw [base_iff' .SPEED_VFR (by decide) (prodW speedW [litW (py! "VFR")]) (by decide +kernel), any_prod]
  simp only [SpeedVfr, speed_iff, any_lit]
  constructor
  · rintro ⟨u, v, rfl, h, rfl⟩; exact ⟨u, rfl, h⟩
  · rintro ⟨a, rfl, h⟩; exact ⟨a, _, rfl, h, rfl⟩

/-- **C10** A token is a SPEED/LEVEL/PLUS iff it is a speed, a level and `PLUS`. -/
theorem c10_speed_level_plus (s : Str) : (getTokenType s).1 = .SPEED_ALTITUDE_PLUS ↔ SpeedLevelPlus s := by
  rw [base_iff' .SPEED_ALTITUDE_PLUS (by decide) (prodW (prodW speedW levelW) [litW (py! "PLUS")])
    (by decide +kernel)]
  simp only [any_prod, SpeedLevelPlus, speed_iff, level_iff, any_lit]
  constructor
  · rintro ⟨_, _, rfl, ⟨a, b, rfl, ha, hb⟩, rfl⟩; exact ⟨a, b, rfl, ha, hb⟩
  · rintro ⟨a, b, rfl, ha, hb⟩; exact ⟨a ++ b, _, rfl, ⟨a, b, rfl, ha, hb⟩, rfl⟩

theorem char_le_nat (a b : Char) : a ≤ b ↔ a.toNat ≤ b.toNat := by
  rw [Char.le_def]; exact Iff.rfl

theorem timeOfDay_iff (s : Str) : TimeOfDay s ↔
    Any [[[('0', '0'), ('1', '1')], [('0', '9')], [('0', '5')], [('0', '9')]],
      [[('2', '2')], [('0', '3')], [('0', '5')], [('0', '9')]]] s := by
  simp only [Any, List.mem_cons, List.not_mem_nil, or_false, exists_eq_or_imp, exists_eq_left, wm_cons,
    TimeOfDay, Cls.has, List.any_cons, List.any_nil, Bool.or_false, Bool.or_eq_true, Bool.and_eq_true,
    decide_eq_true_eq, Digit, dval, char_le_nat]
  have e0 : ('0' : Char).toNat = 48 := rfl
  have e1 : ('1' : Char).toNat = 49 := rfl
  have e2 : ('2' : Char).toNat = 50 := rfl
  have e3 : ('3' : Char).toNat = 51 := rfl
  have e5 : ('5' : Char).toNat = 53 := rfl
  have e9 : ('9' : Char).toNat = 57 := rfl
  simp only [e0, e1, e2, e3, e5, e9]
  constructor
  · rintro ⟨a, b, c, d, rfl, ha, hb, hc, hd, h1, h2⟩
    by_cases h : a.toNat = 50
    · right
      exact ⟨a, _, rfl, by omega, b, _, rfl, by omega, c, _, rfl, by omega, d, _, rfl, by omega, rfl⟩
    · left
      exact ⟨a, _, rfl, by omega, b, _, rfl, by omega, c, _, rfl, by omega, d, _, rfl, by omega, rfl⟩
  · rintro (⟨a, _, rfl, ha, b, _, rfl, hb, c, _, rfl, hc, d, t, rfl, hd, ht⟩ |
      ⟨a, _, rfl, ha, b, _, rfl, hb, c, _, rfl, hc, d, t, rfl, hd, ht⟩)
    all_goals
      have : t = [] := by cases t with
        | nil => rfl
        | cons => simp [wm] at ht
      subst this
      exact ⟨a, b, c, d, rfl, by omega, by omega, by omega, by omega, by omega, by omega⟩

/-- **C10** A token is a stay time iff it is `HHMM` with HH < 24, MM < 60. -/
theorem c10_stay_time (s : Str) : (getTokenType s).1 = .STAY_TIME ↔ TimeOfDay s := by
  rw [timeOfDay_iff]
  exact base_iff' .STAY_TIME (by decide) _ (by decide +kernel) s

/-- Words of the letter-only names of 1 to 5 letters. -/
theorem named_iff (s : Str) : (∃ n, 1 ≤ n ∧ n ≤ 5 ∧ Letters n s) ↔
    Any ([1, 2, 3, 4, 5].map fun n => List.replicate n kL) s := by
  simp only [Any, List.mem_map, letters_iff]
  constructor
  · rintro ⟨n, h1, h2, h⟩
    refine ⟨_, ⟨n, ?_, rfl⟩, h⟩
    have : n = 1 ∨ n = 2 ∨ n = 3 ∨ n = 4 ∨ n = 5 := by omega
    simpa using this
  · rintro ⟨_, ⟨n, hn, rfl⟩, h⟩
    have : n = 1 ∨ n = 2 ∨ n = 3 ∨ n = 4 ∨ n = 5 := by simpa using hn
    exact ⟨n, by omega, by omega, h⟩

theorem track_iff (s : Str) : TrackLetters s ↔ Any [litW (py! "NAT") ++ [kL], litW (py! "PTS") ++ [kL]] s := by
  have one : ∀ (v : Str), wm [kL] v = true ↔ ∃ c, Letter c ∧ v = [c] := by
    intro v
    rw [wm_cons]
    constructor
    · rintro ⟨c, t, rfl, hc, ht⟩
      cases t with
      | nil => exact ⟨c, (has_kL c).1 hc, rfl⟩
      | cons => simp [wm] at ht
    · rintro ⟨c, hc, rfl⟩; exact ⟨c, [], rfl, (has_kL c).2 hc, rfl⟩
  simp only [Any, List.mem_cons, List.not_mem_nil, or_false, exists_eq_or_imp, exists_eq_left, wm_append,
    lit_iff, one, TrackLetters]
  constructor
  · rintro ⟨c, hc, rfl | rfl⟩
    · exact .inl ⟨_, _, rfl, rfl, c, hc, rfl⟩
    · exact .inr ⟨_, _, rfl, rfl, c, hc, rfl⟩
  · rintro (⟨_, _, rfl, rfl, c, hc, rfl⟩ | ⟨_, _, rfl, rfl, c, hc, rfl⟩)
    · exact ⟨c, hc, .inl rfl⟩
    · exact ⟨c, hc, .inr rfl⟩

/-- The clashing words of the point rows. -/
theorem point_clash : clash (fun r => r.base = .POINT) =
    reservedWords.map litW ++ [litW (py! "NAT") ++ [kL], litW (py! "PTS") ++ [kL]] := by decide +kernel

theorem no_clash_iff (s : Str) : (∀ w ∈ clash (fun r => r.base = .POINT), wm w s = false) ↔
    s ∉ reservedWords ∧ ¬ TrackLetters s := by
  rw [point_clash, track_iff]
  simp only [List.mem_append, List.mem_map, Any]
  constructor
  · intro h
    refine ⟨fun hs => ?_, fun ⟨w, hw, hws⟩ => ?_⟩
    · have := h (litW s) (.inl ⟨s, hs, rfl⟩)
      rw [(lit_iff s s).2 rfl] at this; simp at this
    · rw [h w (.inr hw)] at hws; simp at hws
  · rintro ⟨h1, h2⟩ w (⟨t, ht, rfl⟩ | hw)
    · cases hh : wm (litW t) s with
      | false => rfl
      | true => exact absurd ((lit_iff _ _).1 hh ▸ ht) h1
    · cases hh : wm w s with
      | false => rfl
      | true => exact absurd ⟨w, hw, hh⟩ h2

theorem namedBd_iff (s : Str) : NamedBearingDistance s ↔
    Any (prodW ([1, 2, 3, 4, 5].map fun n => List.replicate n kL) [List.replicate 6 kD]) s := by
  rw [any_prod]
  simp only [← named_iff, NamedBearingDistance]
  have : ∀ v, Any [List.replicate 6 kD] v ↔ Digits 6 v := by
    intro v; simp only [Any, List.mem_singleton, exists_eq_left, digits_iff]
  simp only [this]
  constructor
  · rintro ⟨n, a, b, rfl, h1, h2, h3, h4⟩; exact ⟨a, b, rfl, ⟨n, h1, h2, h3⟩, h4⟩
  · rintro ⟨a, b, rfl, ⟨n, h1, h2, h3⟩, h4⟩; exact ⟨n, a, b, rfl, h1, h2, h3, h4⟩

theorem llBd_iff (n m : Nat) (s : Str) : LatLonBearingDistance n m s ↔
    wm (latLonW n m ++ List.replicate 6 kD) s = true := by
  rw [wm_append]; simp only [LatLonBearingDistance, latLon_iff, digits_iff]

/-- Words of points that are not plain names. -/
def llWords : List (List Cls) :=
  [latLonW 2 3, latLonW 4 5, latLonW 2 3 ++ List.replicate 6 kD, latLonW 4 5 ++ List.replicate 6 kD]

theorem any4 (a b c d : List Cls) (s : Str) : Any [a, b, c, d] s ↔
    wm a s = true ∨ wm b s = true ∨ wm c s = true ∨ wm d s = true := by
  simp [Any]

/-- **C10** A token is a point iff it is a named point (1–5 letters, no reserved word, no track), a named
point with bearing/distance, or one of the four lat/long forms. -/
theorem c10_point (s : Str) : (getTokenType s).1 = .POINT ↔ PointShape s := by
  rw [base_iff .POINT (by decide) (by decide +kernel), no_clash_iff]
  rw [any_equiv (b := ([1, 2, 3, 4, 5].map fun n => List.replicate n kL) ++
    (prodW ([1, 2, 3, 4, 5].map fun n => List.replicate n kL) [List.replicate 6 kD] ++ llWords)) (by decide +kernel)]
  rw [any_append, any_append, ← named_iff, ← namedBd_iff]
  unfold llWords
  rw [any4, ← latLon_iff, ← latLon_iff, ← llBd_iff, ← llBd_iff]
  unfold PointShape NamedPoint
  constructor
  · rintro ⟨h | h | h | h | h | h, h1, h2⟩
    · exact .inl ⟨h, h1, h2⟩
    · exact .inr (.inl h)
    · exact .inr (.inr (.inl h))
    · exact .inr (.inr (.inr (.inl h)))
    · exact .inr (.inr (.inr (.inr (.inl h))))
    · exact .inr (.inr (.inr (.inr (.inr h))))
  · intro h
    rcases h with ⟨h, h1, h2⟩ | h
    · exact ⟨.inl h, h1, h2⟩
    · have hw : Any (prodW ([1, 2, 3, 4, 5].map fun n => List.replicate n kL) [List.replicate 6 kD] ++ llWords) s := by
        rw [any_append, ← namedBd_iff]
        unfold llWords
        rw [any4, ← latLon_iff, ← latLon_iff, ← llBd_iff, ← llBd_iff]
        exact h
      refine ⟨.inr h, ?_⟩
      rw [← no_clash_iff, point_clash]
      intro w hcl
      obtain ⟨v, hv, hvs⟩ := hw
      cases hh : wm w s with
      | false => rfl
      | true =>
        have key : ((reservedWords.map litW ++ [litW (py! "NAT") ++ [kL], litW (py! "PTS") ++ [kL]]).all fun w =>
          (prodW ([1, 2, 3, 4, 5].map fun n => List.replicate n kL) [List.replicate 6 kD] ++ llWords).all
            fun v => disjW w v) = true := by decide +kernel
        exact absurd ⟨hh, hvs⟩ (disjW_sound (List.all_eq_true.1 (List.all_eq_true.1 key w hcl) v hv) s)

/-- **C10** The subtypes of the lat/long and bearing/distance forms. -/
theorem c10_point_subtypes (s : Str) :
    ((getTokenType s).2 = .LL_DEG ↔ LatLon 2 3 s) ∧ ((getTokenType s).2 = .LL_MIN ↔ LatLon 4 5 s) ∧
    ((getTokenType s).2 = .LLBD_DEG ↔ LatLonBearingDistance 2 3 s) ∧
    ((getTokenType s).2 = .LLBD_MIN ↔ LatLonBearingDistance 4 5 s) ∧
    ((getTokenType s).2 = .PRP_BD ↔ NamedBearingDistance s) := by
  have one : ∀ w, Any [w] s ↔ wm w s = true := by intro w; simp [Any]
  refine ⟨?_, ?_, ?_, ?_, ?_⟩
  · rw [latLon_iff, ← one]; exact sub_iff' _ (by decide) _ (by decide +kernel) s
  · rw [latLon_iff, ← one]; exact sub_iff' _ (by decide) _ (by decide +kernel) s
  · rw [llBd_iff, ← one]; exact sub_iff' _ (by decide) _ (by decide +kernel) s
  · rw [llBd_iff, ← one]; exact sub_iff' _ (by decide) _ (by decide +kernel) s
  · rw [namedBd_iff]; exact sub_iff' _ (by decide) _ (by decide +kernel) s

/-- **C10** The keywords, each the only token with its types. -/
theorem c10_keywords (s : Str) :
    ((getTokenType s).1 = .SLASH ↔ s = py! "/") ∧ ((getTokenType s).1 = .DCT ↔ s = py! "DCT") ∧
    ((getTokenType s).1 = .TRUNCATE ↔ s = py! "T") ∧ ((getTokenType s).1 = .C ↔ s = py! "C") ∧
    ((getTokenType s).1 = .SID ↔ s = py! "SID") ∧ ((getTokenType s).1 = .STAR ↔ s = py! "STAR") ∧
    (getTokenType s = (.BREAK_START, .VFR) ↔ s = py! "VFR") ∧
    (getTokenType s = (.BREAK_START, .OAT) ↔ s = py! "OAT") ∧
    (getTokenType s = (.BREAK_START, .IFPSTOP) ↔ s = py! "IFPSTOP") ∧
    (getTokenType s = (.BREAK_END, .IFR) ↔ s = py! "IFR") ∧
    (getTokenType s = (.BREAK_END, .GAT) ↔ s = py! "GAT") ∧
    (getTokenType s = (.BREAK_END, .IFPSTART) ↔ s = py! "IFPSTART") := by
  have key : ∀ (b : BaseType) (u : SubType) (t : Str), (getTokenType t = (b, u)) →
      (∀ s, (getTokenType s).2 = u ↔ Any [litW t] s) → (getTokenType s = (b, u) ↔ s = t) := by
    intro b u t h1 h2
    constructor
    · intro h
      have := (h2 s).1 (by rw [h])
      exact (any_lit t s).1 this
    · rintro rfl; exact h1
  refine ⟨?_, ?_, ?_, ?_, ?_, ?_, ?_, ?_, ?_, ?_, ?_, ?_⟩
  · rw [← any_lit]; exact base_iff' _ (by decide) _ (by decide +kernel) s
  · rw [← any_lit]; exact base_iff' _ (by decide) _ (by decide +kernel) s
  · rw [← any_lit]; exact base_iff' _ (by decide) _ (by decide +kernel) s
  · rw [← any_lit]; exact base_iff' _ (by decide) _ (by decide +kernel) s
  · rw [← any_lit]; exact base_iff' _ (by decide) _ (by decide +kernel) s
  · rw [← any_lit]; exact base_iff' _ (by decide) _ (by decide +kernel) s
  all_goals exact key _ _ _ (by decide +kernel) (sub_iff' _ (by decide) _ (by decide +kernel))

/-- **C10** STAY indicator: `STAY` and one digit. -/
theorem c10_stay (s : Str) : (getTokenType s).1 = .STAY ↔ ∃ c, Digit c ∧ s = py! "STAY" ++ [c] := by
  rw [base_iff' .STAY (by decide) [litW (py! "STAY") ++ [kD]] (by decide +kernel)]
  simp only [Any, List.mem_singleton, exists_eq_left, wm_append, lit_iff, wm_cons, has_kD]
  constructor
  · rintro ⟨_, _, rfl, rfl, c, t, rfl, hc, ht⟩
    cases t with
    | nil => exact ⟨c, hc, rfl⟩
    | cons => simp [wm] at ht
  · rintro ⟨c, hc, rfl⟩; exact ⟨_, _, rfl, rfl, c, [], rfl, hc, rfl⟩

/-- **C10** SID/STAR designators. -/
theorem c10_sid_star (s : Str) : (getTokenType s).1 = .SID_STAR ↔ SidStarShape s := by
  unfold SidStarShape
  rw [formats_iff]
  exact base_iff' _ (by decide) _ (by decide +kernel) s

/-- **C10** ATS routes and tracks. -/
theorem c10_route (s : Str) : (getTokenType s).1 = .ROUTE ↔ RouteShape s := by
  rw [base_iff .ROUTE (by decide) (by decide +kernel)]
  have hc : clash (fun r => r.base = .ROUTE) = [litW (py! "STAY") ++ [kD]] := by decide +kernel
  have hst : wm (litW (py! "STAY") ++ [kD]) s = true ↔ ∃ c, Digit c ∧ s = py! "STAY" ++ [c] := by
    rw [← c10_stay, base_iff' .STAY (by decide) [litW (py! "STAY") ++ [kD]] (by decide +kernel)]
    simp [Any]
  rw [hc, any_equiv (b := routeFormats.map ldlW ++ [litW (py! "NAT") ++ [kL], litW (py! "PTS") ++ [kL]])
    (by decide +kernel), any_append, ← formats_iff, ← track_iff]
  unfold RouteShape
  rw [← hst]
  constructor
  · rintro ⟨h, h2⟩
    rcases h with h | h
    · exact .inl ⟨h, by simpa using h2⟩
    · exact .inr h
  · rintro (⟨h, h2⟩ | h)
    · exact ⟨.inl h, by simpa using h2⟩
    · refine ⟨.inr h, ?_⟩
      intro w hw
      obtain rfl : w = _ := by simpa using hw
      cases hh : wm (litW (py! "STAY") ++ [kD]) s with
      | false => rfl
      | true =>
        obtain ⟨v, hv, hvs⟩ := (track_iff s).1 h
        have key : ([litW (py! "NAT") ++ [kL], litW (py! "PTS") ++ [kL]].all fun v =>
          disjW (litW (py! "STAY") ++ [kD]) v) = true := by decide +kernel
        exact absurd ⟨hh, hvs⟩ (disjW_sound (List.all_eq_true.1 key v hv) s)

/-- The shapes are inhabited and separate neighbouring cases. -/
example : SpeedLevel (py! "M082F350") ∧ ¬ SpeedLevel (py! "M0820F350") ∧ TimeOfDay (py! "2359") ∧
    ¬ TimeOfDay (py! "2400") ∧ PointShape (py! "PNT") ∧ ¬ PointShape (py! "NATX") ∧ RouteShape (py! "UL9") ∧
    SidStarShape (py! "BRAZA1D") := by
  refine ⟨(c10_speed_level _).1 ?_, fun h => ?_, (c10_stay_time _).1 ?_, fun h => ?_, (c10_point _).1 ?_,
    fun h => ?_, (c10_route _).1 ?_, (c10_sid_star _).1 ?_⟩
  · decide +kernel
  · exact absurd ((c10_speed_level _).2 h) (by decide +kernel)
  · decide +kernel
  · exact absurd ((c10_stay_time _).2 h) (by decide +kernel)
  · decide +kernel
  · exact absurd ((c10_point _).2 h) (by decide +kernel)
  · decide +kernel
  · decide +kernel

/-! ### C11 -/

/-- Word of one cruise-climb combination. -/
def ccW (k : Char × Char × Char) : List Cls :=
  (kC k.1 :: List.replicate (speedDigits k.1) kD) ++
    ((kC k.2.1 :: List.replicate (levelDigits k.2.1) kD) ++ (kC k.2.2 :: List.replicate (levelDigits k.2.2) kD))

theorem unit1_iff (u : Char) (n : Nat) (s : Str) : UnitDigits [u] n s ↔ wm (kC u :: List.replicate n kD) s = true := by
  rw [unitDigits_iff]; simp [Any, unitW]

theorem cc_iff (k : Char × Char × Char) (s : Str) : SpeedLevelLevelOf k s ↔ wm (ccW k) s = true := by
  unfold SpeedLevelLevelOf ccW
  rw [wm_append]
  simp only [wm_append _ _ , unit1_iff]
  constructor
  · rintro ⟨a, b, c, rfl, h1, h2, h3⟩; exact ⟨a, b ++ c, rfl, h1, b, c, rfl, h2, h3⟩
  · rintro ⟨a, _, rfl, h1, b, c, rfl, h2, h3⟩; exact ⟨a, b, c, rfl, h1, h2, h3⟩

/-- The three combinations the table gets wrong. -/
def wrongCombos : List (Char × Char × Char) := [('N', 'A', 'S'), ('N', 'A', 'M'), ('K', 'F', 'A')]

/-- **C11 (partial)** Every cruise-climb combination other than N-A-S, N-A-M and K-F-A is recognised with
its own subtype. The full claim (all 48) is false, see `c11_false`. -/
theorem c11_partial (k : Char × Char × Char) (u : SubType) (hk : (k, u) ∈ cruiseClimbSubtypes)
    (hw : k ∉ wrongCombos) (s : Str) (hs : SpeedLevelLevelOf k s) :
    getTokenType s = (.SPEED_ALTITUDE_ALTITUDE, u) := by
  have key : (cruiseClimbSubtypes.all fun p => wrongCombos.contains p.1 ||
      decide (((firstFor (ccW p.1) table).map fun r => (r.base, r.sub)) =
        some (.SPEED_ALTITUDE_ALTITUDE, p.2))) = true := by decide +kernel
  have h := List.all_eq_true.1 key (k, u) hk
  rw [Bool.or_eq_true, decide_eq_true_eq] at h
  rcases h with h | h
  · exact absurd (by simpa using h) hw
  · exact type_of_word h ((cc_iff k s).1 hs)

/-- **C11 (defect)** No token of the combinations N-A-S and N-A-M is recognised at all, and K-F-A tokens
get the subtype of K-F-S. -/
theorem c11_wrong (s : Str) :
    (SpeedLevelLevelOf ('N', 'A', 'S') s → getTokenType s = (.UNKNOWN, .UNKNOWN)) ∧
    (SpeedLevelLevelOf ('N', 'A', 'M') s → getTokenType s = (.UNKNOWN, .UNKNOWN)) ∧
    (SpeedLevelLevelOf ('K', 'F', 'A') s → getTokenType s = (.SPEED_ALTITUDE_ALTITUDE, .SPEED_ALTITUDE_KFS)) := by
  refine ⟨fun h => ?_, fun h => ?_, fun h => ?_⟩
  · exact unknown_of_word (by decide +kernel) ((cc_iff _ s).1 h)
  · exact unknown_of_word (by decide +kernel) ((cc_iff _ s).1 h)
  · exact type_of_word (w := ccW ('K', 'F', 'A')) (by decide +kernel) ((cc_iff _ s).1 h)

/-- **C11** Exactly which tokens are recognised as cruise climb: the 46 combinations, and two shapes with a
four digit altitude that no documented element has. -/
theorem c11_recognised (s : Str) : (getTokenType s).1 = .SPEED_ALTITUDE_ALTITUDE ↔
    (∃ p ∈ cruiseClimbSubtypes, p.1 ≠ ('N', 'A', 'S') ∧ p.1 ≠ ('N', 'A', 'M') ∧ SpeedLevelLevelOf p.1 s) ∨
    (∃ a b c, s = a ++ (b ++ c) ∧ UnitDigits ['N'] 4 a ∧ UnitDigits ['A'] 4 b ∧ UnitDigits ['S', 'M'] 4 c) := by
  let good := (cruiseClimbSubtypes.filter fun p => p.1 ≠ ('N', 'A', 'S') ∧ p.1 ≠ ('N', 'A', 'M')).map fun p => ccW p.1
  let bad := prodW (unitW ['N'] 4) (prodW (unitW ['A'] 4) (unitW ['S', 'M'] 4))
  have h1 : (∃ p ∈ cruiseClimbSubtypes, p.1 ≠ ('N', 'A', 'S') ∧ p.1 ≠ ('N', 'A', 'M') ∧ SpeedLevelLevelOf p.1 s) ↔
      Any good s := by
    simp only [Any, good, List.mem_map, List.mem_filter, decide_eq_true_eq, cc_iff]
    constructor
    · rintro ⟨p, hp, hn, hn', h⟩; exact ⟨_, ⟨p, ⟨hp, hn, hn'⟩, rfl⟩, h⟩
    · rintro ⟨_, ⟨p, ⟨hp, hn, hn'⟩, rfl⟩, h⟩; exact ⟨p, hp, hn, hn', h⟩
  have h2 : (∃ a b c, s = a ++ (b ++ c) ∧ UnitDigits ['N'] 4 a ∧ UnitDigits ['A'] 4 b ∧ UnitDigits ['S', 'M'] 4 c) ↔
      Any bad s := by
    simp only [bad, any_prod, unitDigits_iff]
    constructor
    · rintro ⟨a, b, c, rfl, ha, hb, hc⟩; exact ⟨a, _, rfl, ha, b, c, rfl, hb, hc⟩
    · rintro ⟨a, _, rfl, ha, b, c, rfl, hb, hc⟩; exact ⟨a, b, c, rfl, ha, hb, hc⟩
  rw [h1, h2, ← any_append]
  exact base_iff' _ (by decide) _ (by decide +kernel) s

/-- **C11 (refutation)** The full claim is false. -/
theorem c11_false : ¬ ∀ k u, (k, u) ∈ cruiseClimbSubtypes → ∀ s, SpeedLevelLevelOf k s →
    getTokenType s = (.SPEED_ALTITUDE_ALTITUDE, u) := by
  intro h
  have hs : SpeedLevelLevelOf ('N', 'A', 'S') (py! "N0450A045S1130") := (cc_iff _ _).2 (by decide +kernel)
  have h1 := h ('N', 'A', 'S') .SPEED_ALTITUDE_NAS (by decide) _ hs
  have h2 := (c11_wrong _).1 hs
  rw [h2] at h1; simp at h1

example : SpeedLevelLevelOf ('M', 'S', 'F') (py! "M082S1130F350") := (cc_iff _ _).2 (by decide +kernel)

end F15
