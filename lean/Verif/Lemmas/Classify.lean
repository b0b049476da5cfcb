import Verif.Model.Classify
import Verif.Lemmas.Regex
import Verif.Spec.Shapes
/-! Whole-table facts: decided by evaluation of the (finite) table of class words, and lifted to all
strings by the soundness lemmas of `Lemmas/Regex`. -/

namespace F15
open Spec

/-- The class words of a row. -/
def Row.words (r : Row) : List (List Cls) :=
  match parseRe r.pattern with
  | some re => re.expand
  | none => []

theorem row_fullmatch_iff (r : Row) (s : Str) : r.fullmatch s = true ↔ ∃ w ∈ r.words, wm w s = true := by
  unfold Row.fullmatch Row.words
  cases parseRe r.pattern with
  | none => simp
  | some re => simp only [fullmatch_iff, expand_spec]

/-- No pattern of the table has a syntax error. -/
theorem all_patterns_parse : (table.all fun r => (parseRe r.pattern).isSome) = true := by decide +kernel

/-- The first matching row. -/
def getRow (s : Str) : Option Row := table.find? fun r => r.fullmatch s

theorem getTokenType_eq (s : Str) :
    getTokenType s = ((getRow s).map fun r => (r.base, r.sub)).getD (.UNKNOWN, .UNKNOWN) := by
  unfold getTokenType getRow
  cases table.find? fun r => r.fullmatch s <;> rfl

/-- No row is typed UNKNOWN or TOO_LONG. -/
theorem table_no_unknown : (table.all fun r => r.base ≠ .UNKNOWN && r.base ≠ .TOO_LONG && r.sub ≠ .UNKNOWN) = true := by
  decide +kernel

/-- The class words of the rows satisfying `p`. -/
def wordsOf (p : Row → Bool) (tbl : List Row) : List (List Cls) := (tbl.filter p).flatMap Row.words

theorem wordsOf_iff (p : Row → Bool) (tbl : List Row) (s : Str) :
    (∃ w ∈ wordsOf p tbl, wm w s = true) ↔ ∃ r ∈ tbl, p r = true ∧ r.fullmatch s = true := by
  simp only [wordsOf, List.mem_flatMap, List.mem_filter, row_fullmatch_iff]
  constructor
  · rintro ⟨w, ⟨r, ⟨h1, h2⟩, h3⟩, h4⟩; exact ⟨r, h1, h2, w, h3, h4⟩
  · rintro ⟨r, h1, h2, w, h3, h4⟩; exact ⟨w, ⟨r, ⟨h1, h2⟩, h3⟩, h4⟩

/-- Every non-`p` row is disjoint from the `p` rows after it. -/
def overlapFree (p : Row → Bool) : List Row → Bool
  | [] => true
  | r :: rs =>
    (p r || r.words.all fun w => (wordsOf p rs).all fun v => disjW w v) && overlapFree p rs

theorem find_of_overlapFree (p : Row → Bool) (tbl : List Row) (h : overlapFree p tbl = true) (s : Str) :
    (∃ r, tbl.find? (fun r => r.fullmatch s) = some r ∧ p r = true) ↔
      ∃ w ∈ wordsOf p tbl, wm w s = true := by
  rw [wordsOf_iff]
  induction tbl with
  | nil => simp
  | cons a tbl ih =>
    simp only [overlapFree, Bool.and_eq_true, Bool.or_eq_true, List.all_eq_true] at h
    have ih' := ih h.2
    by_cases ha : a.fullmatch s = true
    · simp only [List.find?_cons, ha, Option.some.injEq]
      constructor
      · rintro ⟨r, rfl, hr⟩
        exact ⟨a, by simp, hr, ha⟩
      · rintro ⟨r, hr, hp, hm⟩
        refine ⟨a, rfl, ?_⟩
        rcases List.mem_cons.1 hr with rfl | hr
        · exact hp
        · rcases h.1 with h1 | h1
          · exact h1
          · obtain ⟨w, hw, hws⟩ := (row_fullmatch_iff a s).1 ha
            obtain ⟨v, hv, hvs⟩ := (wordsOf_iff p tbl s).2 ⟨r, hr, hp, hm⟩
            exact absurd ⟨hws, hvs⟩ (disjW_sound (h1 w hw v hv) s)
    · have ha' : a.fullmatch s = false := by simpa using ha
      simp only [List.find?_cons, ha', ih']
      constructor
      · rintro ⟨r, hr, hh⟩; exact ⟨r, by simp [hr], hh⟩
      · rintro ⟨r, hr, hp, hm⟩
        rcases List.mem_cons.1 hr with rfl | hr
        · exact absurd hm ha
        · exact ⟨r, hr, hp, hm⟩

theorem mem_takeWhile_imp {α} (q : α → Bool) (l : List α) {x : α} (h : x ∈ l.takeWhile q) : q x = true := by
  induction l with
  | nil => simp at h
  | cons a l ih =>
    rw [List.takeWhile_cons] at h
    split at h
    · rcases List.mem_cons.1 h with rfl | h
      · assumption
      · exact ih h
    · simp at h

/-- Rows before the first `p` row. -/
def preRows (p : Row → Bool) : List Row := table.takeWhile fun r => !p r
/-- Rows from the first `p` row on. -/
def postRows (p : Row → Bool) : List Row := table.dropWhile fun r => !p r

/-- Words of earlier rows that are not disjoint from all `p` words. -/
def clash (p : Row → Bool) : List (List Cls) :=
  let ws := wordsOf p table
  ((preRows p).flatMap Row.words).filter fun w => !(ws.all fun v => disjW w v)

/-- First-match classification reduced to class words: a token gets a row of kind `p` iff it matches one
of the `p` words and none of the clashing earlier words. -/
theorem row_iff (p : Row → Bool) (h : overlapFree p (postRows p) = true) (s : Str) :
    (∃ r, getRow s = some r ∧ p r = true) ↔
      (∃ w ∈ wordsOf p table, wm w s = true) ∧ ∀ w ∈ clash p, wm w s = false := by
  have hsplit : table = preRows p ++ postRows p := (List.takeWhile_append_dropWhile).symm
  have hpre : ∀ r ∈ preRows p, p r = false := by
    intro r hr
    have := mem_takeWhile_imp _ _ hr
    simpa using this
  have hwords : ∀ s, (∃ w ∈ wordsOf p table, wm w s = true) ↔ ∃ w ∈ wordsOf p (postRows p), wm w s = true := by
    intro s
    rw [wordsOf_iff, wordsOf_iff]
    constructor
    · rintro ⟨r, hr, hp, hm⟩
      rw [hsplit] at hr
      rcases List.mem_append.1 hr with hr | hr
      · simp [hpre r hr] at hp
      · exact ⟨r, hr, hp, hm⟩
    · rintro ⟨r, hr, hh⟩
      exact ⟨r, by rw [hsplit]; exact List.mem_append_right _ hr, hh⟩
  have key : (∃ r, getRow s = some r ∧ p r = true) ↔
      (∀ r ∈ preRows p, r.fullmatch s = false) ∧ ∃ w ∈ wordsOf p (postRows p), wm w s = true := by
    rw [← find_of_overlapFree p _ h s]
    unfold getRow
    conv => lhs; rw [hsplit]
    rw [List.find?_append]
    by_cases hex : ∃ r ∈ preRows p, r.fullmatch s = true
    · obtain ⟨r, hr, hm⟩ := hex
      have : ∃ r', (preRows p).find? (fun r => r.fullmatch s) = some r' := by
        rw [← Option.isSome_iff_exists, List.find?_isSome]
        exact ⟨r, hr, hm⟩
      obtain ⟨r', hr'⟩ := this
      have hmem := List.mem_of_find?_eq_some hr'
      constructor
      · rintro ⟨x, hx, hp⟩
        rw [hr'] at hx
        simp only [Option.some_or, Option.some.injEq] at hx
        subst hx
        simp [hpre _ hmem] at hp
      · rintro ⟨h1, _⟩
        simp [h1 r hr] at hm
    · have hall : ∀ r ∈ preRows p, r.fullmatch s = false := by
        intro r hr
        cases hh : r.fullmatch s with
        | true => exact absurd ⟨r, hr, hh⟩ hex
        | false => rfl
      have : (preRows p).find? (fun r => r.fullmatch s) = none := by
        rw [List.find?_eq_none]
        intro r hr; simp [hall r hr]
      rw [this, Option.none_or]
      exact ⟨fun h => ⟨hall, h⟩, fun h => h.2⟩
  rw [key, hwords]
  constructor
  · rintro ⟨h1, h2⟩
    refine ⟨h2, ?_⟩
    intro w hw
    simp only [clash, List.mem_filter, List.mem_flatMap] at hw
    obtain ⟨⟨r, hr, hwr⟩, _⟩ := hw
    cases hh : wm w s with
    | false => rfl
    | true =>
      have := (row_fullmatch_iff r s).2 ⟨w, hwr, hh⟩
      simp [h1 r hr] at this
  · rintro ⟨h2, h1⟩
    refine ⟨?_, h2⟩
    intro r hr
    cases hh : r.fullmatch s with
    | false => rfl
    | true =>
      obtain ⟨w, hw, hws⟩ := (row_fullmatch_iff r s).1 hh
      by_cases hc : ((wordsOf p table).all fun v => disjW w v) = true
      · obtain ⟨v, hv, hvs⟩ := (hwords s).2 h2
        exact absurd ⟨hws, hvs⟩ (disjW_sound (List.all_eq_true.1 hc v hv) s)
      · have : w ∈ clash p := by
          simp only [clash, List.mem_filter, List.mem_flatMap]
          exact ⟨⟨r, hr, hw⟩, by simpa using hc⟩
        rw [h1 w this] at hws
        simp at hws

/-- The token type is that of a table row satisfying `p`. -/
theorem type_of_row (s : Str) (q : BaseType × SubType → Bool) (hq : q (.UNKNOWN, .UNKNOWN) = false) :
    q (getTokenType s) = true ↔ ∃ r, getRow s = some r ∧ q (r.base, r.sub) = true := by
  rw [getTokenType_eq]
  cases getRow s with
  | none => simp [hq]
  | some r => simp

/-- A classified token matches a row with its types. -/
theorem type_row (s : Str) : getTokenType s = (.UNKNOWN, .UNKNOWN) ∨
    ∃ r ∈ table, getTokenType s = (r.base, r.sub) ∧ ∃ w ∈ r.words, wm w s = true := by
  rw [getTokenType_eq]
  cases h : getRow s with
  | none => left; rfl
  | some r =>
    right
    refine ⟨r, List.mem_of_find?_eq_some h, rfl, ?_⟩
    have := List.find?_some h
    exact (row_fullmatch_iff r s).1 this

/-! ### Words for the readable shapes -/

/-- Class of letters. -/
def kL : Cls := [('A', 'Z')]
/-- Class of digits. -/
def kD : Cls := [('0', '9')]
/-- Class of one character. -/
def kC (c : Char) : Cls := [(c, c)]

theorem has_kL (c : Char) : kL.has c = true ↔ Letter c := by simp [Cls.has, kL, Letter]
theorem has_kD (c : Char) : kD.has c = true ↔ Digit c := by simp [Cls.has, kD, Digit]
theorem has_kC (c d : Char) : (kC c).has d = true ↔ d = c := by
  simp only [Cls.has, kC, List.any_cons, List.any_nil, Bool.or_false, Bool.and_eq_true, decide_eq_true_eq]
  constructor
  · rintro ⟨h1, h2⟩; exact Char.le_antisymm h2 h1
  · rintro rfl; exact ⟨Char.le_refl _, Char.le_refl _⟩

theorem wm_replicate (k : Cls) (n : Nat) (s : Str) :
    wm (List.replicate n k) s = true ↔ s.length = n ∧ ∀ c ∈ s, k.has c = true := by
  induction n generalizing s with
  | zero => cases s <;> simp [wm]
  | succ n ih =>
    cases s with
    | nil => simp [wm, List.replicate_succ]
    | cons c s =>
      simp only [List.replicate_succ, wm, Bool.and_eq_true, ih, List.length_cons, List.mem_cons]
      constructor
      · rintro ⟨h1, h2, h3⟩
        refine ⟨by omega, ?_⟩
        rintro d (rfl | hd)
        · exact h1
        · exact h3 d hd
      · rintro ⟨h1, h2⟩
        exact ⟨h2 c (.inl rfl), by omega, fun d hd => h2 d (.inr hd)⟩

theorem letters_iff (n : Nat) (s : Str) : Letters n s ↔ wm (List.replicate n kL) s = true := by
  rw [wm_replicate]; simp only [Letters, has_kL]

theorem digits_iff (n : Nat) (s : Str) : Digits n s ↔ wm (List.replicate n kD) s = true := by
  rw [wm_replicate]; simp only [Digits, has_kD]

theorem wm_cons (k : Cls) (w : List Cls) (s : Str) :
    wm (k :: w) s = true ↔ ∃ c t, s = c :: t ∧ k.has c = true ∧ wm w t = true := by
  cases s with
  | nil => simp [wm]
  | cons c s =>
    simp only [wm, Bool.and_eq_true, List.cons.injEq]
    constructor
    · rintro ⟨h1, h2⟩; exact ⟨c, s, ⟨rfl, rfl⟩, h1, h2⟩
    · rintro ⟨_, _, ⟨rfl, rfl⟩, h1, h2⟩; exact ⟨h1, h2⟩

/-- A set of words. -/
def Any (ws : List (List Cls)) (s : Str) : Prop := ∃ w ∈ ws, wm w s = true

/-- Product of two sets of words. -/
def prodW (a b : List (List Cls)) : List (List Cls) := a.flatMap fun w => b.map (w ++ ·)

theorem any_prod (a b : List (List Cls)) (s : Str) :
    Any (prodW a b) s ↔ ∃ u v, s = u ++ v ∧ Any a u ∧ Any b v := by
  simp only [Any, prodW, List.mem_flatMap, List.mem_map]
  constructor
  · rintro ⟨_, ⟨w, hw, w', hw', rfl⟩, h⟩
    obtain ⟨u, v, rfl, hu, hv⟩ := (wm_append _ _ _).1 h
    exact ⟨u, v, rfl, ⟨w, hw, hu⟩, w', hw', hv⟩
  · rintro ⟨u, v, rfl, ⟨w, hw, hu⟩, w', hw', hv⟩
    exact ⟨w ++ w', ⟨w, hw, w', hw', rfl⟩, (wm_append _ _ _).2 ⟨u, v, rfl, hu, hv⟩⟩

theorem any_append (a b : List (List Cls)) (s : Str) : Any (a ++ b) s ↔ Any a s ∨ Any b s := by
  simp only [Any, List.mem_append]
  constructor
  · rintro ⟨w, h | h, hs⟩
    · exact .inl ⟨w, h, hs⟩
    · exact .inr ⟨w, h, hs⟩
  · rintro (⟨w, h, hs⟩ | ⟨w, h, hs⟩)
    · exact ⟨w, .inl h, hs⟩
    · exact ⟨w, .inr h, hs⟩

/-- Two sets of words with the same members match the same strings. -/
theorem any_congr {a b : List (List Cls)} (h : ((a.all fun w => b.contains w) && (b.all fun w => a.contains w)) = true)
    (s : Str) : Any a s ↔ Any b s := by
  simp only [Bool.and_eq_true, List.all_eq_true, List.contains_iff_mem] at h
  exact ⟨fun ⟨w, hw, hs⟩ => ⟨w, h.1 w hw, hs⟩, fun ⟨w, hw, hs⟩ => ⟨w, h.2 w hw, hs⟩⟩

/-- Words of `UnitDigits`. -/
def unitW (us : List Char) (n : Nat) : List (List Cls) := us.map fun u => kC u :: List.replicate n kD

theorem unitDigits_iff (us : List Char) (n : Nat) (s : Str) : UnitDigits us n s ↔ Any (unitW us n) s := by
  simp only [UnitDigits, Any, unitW, List.mem_map]
  constructor
  · rintro ⟨u, d, hu, rfl, hd⟩
    exact ⟨_, ⟨u, hu, rfl⟩, (wm_cons _ _ _).2 ⟨u, d, rfl, (has_kC u u).2 rfl, (digits_iff n d).1 hd⟩⟩
  · rintro ⟨_, ⟨u, hu, rfl⟩, h⟩
    obtain ⟨c, t, rfl, hc, ht⟩ := (wm_cons _ _ _).1 h
    obtain rfl := (has_kC u c).1 hc
    exact ⟨c, t, hu, rfl, (digits_iff n t).2 ht⟩

/-- Words of a literal string. -/
def litW (s : Str) : List Cls := s.map kC

theorem lit_iff (t s : Str) : wm (litW t) s = true ↔ s = t := by
  induction t generalizing s with
  | nil => cases s <;> simp [litW, wm]
  | cons c t ih =>
    show wm (kC c :: litW t) s = true ↔ _
    rw [wm_cons]
    constructor
    · rintro ⟨d, u, rfl, hd, hu⟩
      rw [(has_kC c d).1 hd, (ih u).1 hu]
    · rintro rfl
      exact ⟨c, t, rfl, (has_kC c c).2 rfl, (ih t).2 rfl⟩

/-- Words of `Speed`. -/
def speedW : List (List Cls) := unitW ['M'] 3 ++ unitW ['K', 'N'] 4
/-- Words of `Level`. -/
def levelW : List (List Cls) := unitW ['F', 'A'] 3 ++ unitW ['S', 'M'] 4

theorem speed_iff (s : Str) : Speed s ↔ Any speedW s := by
  simp only [Speed, speedW, any_append, unitDigits_iff]
theorem level_iff (s : Str) : Level s ↔ Any levelW s := by
  simp only [Level, levelW, any_append, unitDigits_iff]

theorem any_lit (t s : Str) : Any [litW t] s ↔ s = t := by
  simp only [Any, List.mem_singleton, exists_eq_left, lit_iff]

/-- Words of `LatLon n m`. -/
def latLonW (n m : Nat) : List Cls :=
  List.replicate n kD ++ (['N', 'S'].map fun c => (c, c)) :: (List.replicate m kD ++ [['E', 'W'].map fun c => (c, c)])

theorem has_pair (a b c : Char) : Cls.has (([a, b] : List Char).map fun c => (c, c)) c = true ↔ c ∈ [a, b] := by
  have h1 := has_kC a c
  have h2 := has_kC b c
  simp only [Cls.has, kC, List.any_cons, List.any_nil, Bool.or_false, Bool.and_eq_true, decide_eq_true_eq] at h1 h2
  simp only [Cls.has, List.map_cons, List.map_nil, List.any_cons, List.any_nil, Bool.or_false, Bool.or_eq_true,
    Bool.and_eq_true, decide_eq_true_eq, h1, h2, List.mem_cons, List.not_mem_nil, or_false]

theorem latLon_iff (n m : Nat) (s : Str) : LatLon n m s ↔ wm (latLonW n m) s = true := by
  unfold LatLon latLonW
  rw [wm_append]
  simp only [wm_cons, wm_append, digits_iff, has_pair]
  constructor
  · rintro ⟨d, h, e, k, rfl, hd, hh, he, hk⟩
    exact ⟨d, h :: (e ++ [k]), rfl, hd, h, e ++ [k], rfl, hh, e, [k], rfl, he, k, [], rfl, hk, rfl⟩
  · rintro ⟨d, _, rfl, hd, h, _, rfl, hh, e, _, rfl, he, k, x, rfl, hk, hx⟩
    cases x with
    | nil => exact ⟨d, h, e, k, rfl, hd, hh, he, hk⟩
    | cons => simp [wm] at hx

/-- Mutual inclusion of word sets (sufficient test). -/
theorem any_equiv {a b : List (List Cls)}
    (h : ((a.all fun w => b.any fun v => subW w v) && (b.all fun w => a.any fun v => subW w v)) = true)
    (s : Str) : Any a s ↔ Any b s := by
  simp only [Bool.and_eq_true, List.all_eq_true, List.any_eq_true] at h
  constructor
  · rintro ⟨w, hw, hs⟩
    obtain ⟨v, hv, hwv⟩ := h.1 w hw
    exact ⟨v, hv, subW_sound hwv hs⟩
  · rintro ⟨w, hw, hs⟩
    obtain ⟨v, hv, hwv⟩ := h.2 w hw
    exact ⟨v, hv, subW_sound hwv hs⟩

/-- Word of `LDL`. -/
def ldlW (f : Nat × Nat × Nat) : List Cls :=
  List.replicate f.1 kL ++ (List.replicate f.2.1 kD ++ List.replicate f.2.2 kL)

theorem ldl_iff (f : Nat × Nat × Nat) (s : Str) : LDL f s ↔ wm (ldlW f) s = true := by
  unfold LDL ldlW
  simp only [wm_append, letters_iff, digits_iff]
  constructor
  · rintro ⟨u, v, w, rfl, h1, h2, h3⟩; exact ⟨u, v ++ w, rfl, h1, v, w, rfl, h2, h3⟩
  · rintro ⟨u, _, rfl, h1, v, w, rfl, h2, h3⟩; exact ⟨u, v, w, rfl, h1, h2, h3⟩

theorem formats_iff (fs : List (Nat × Nat × Nat)) (s : Str) : (∃ f ∈ fs, LDL f s) ↔ Any (fs.map ldlW) s := by
  simp only [Any, List.mem_map, ldl_iff]
  constructor
  · rintro ⟨f, hf, h⟩; exact ⟨_, ⟨f, hf, rfl⟩, h⟩
  · rintro ⟨_, ⟨f, hf, rfl⟩, h⟩; exact ⟨f, hf, h⟩

/-- The row that every string matching `w` is classified by, if the comparison of class words settles it. -/
def firstFor (w : List Cls) : List Row → Option Row
  | [] => none
  | r :: rs =>
    if r.words.any fun v => subW w v then some r
    else if r.words.all fun v => disjW w v then firstFor w rs else none

theorem firstFor_find {w : List Cls} {tbl : List Row} {r : Row} (h : firstFor w tbl = some r) {s : Str}
    (hs : wm w s = true) : tbl.find? (fun r => r.fullmatch s) = some r := by
  induction tbl with
  | nil => simp [firstFor] at h
  | cons a tbl ih =>
    simp only [firstFor] at h
    split at h
    · rename_i h1
      obtain ⟨v, hv, hwv⟩ := List.any_eq_true.1 h1
      have : a.fullmatch s = true := (row_fullmatch_iff a s).2 ⟨v, hv, subW_sound hwv hs⟩
      simp only [List.find?_cons, this]; exact h
    · split at h
      · rename_i h2
        have : a.fullmatch s = false := by
          cases hh : a.fullmatch s with
          | false => rfl
          | true =>
            obtain ⟨v, hv, hvs⟩ := (row_fullmatch_iff a s).1 hh
            exact absurd ⟨hs, hvs⟩ (disjW_sound (List.all_eq_true.1 h2 v hv) s)
        simp only [List.find?_cons, this]; exact ih h
      · simp at h

theorem type_of_word {w : List Cls} {s : Str} {b : BaseType} {u : SubType}
    (h : ((firstFor w table).map fun r => (r.base, r.sub)) = some (b, u)) (hs : wm w s = true) :
    getTokenType s = (b, u) := by
  cases hf : firstFor w table with
  | none => simp [hf] at h
  | some r =>
    rw [hf] at h
    rw [getTokenType_eq]
    unfold getRow
    rw [firstFor_find hf hs]
    simpa using h

/-- No row matches a string that matches `w`. -/
theorem unknown_of_word {w : List Cls} {s : Str} (h : (table.all fun r => r.words.all fun v => disjW w v) = true)
    (hs : wm w s = true) : getTokenType s = (.UNKNOWN, .UNKNOWN) := by
  rcases type_row s with h1 | ⟨r, hr, _, v, hv, hvs⟩
  · exact h1
  · have := List.all_eq_true.1 (List.all_eq_true.1 h r hr) v hv
    exact absurd ⟨hs, hvs⟩ (disjW_sound this s)

end F15
