import Verif.Lemmas.Does
/-!
# The actions of the parser

Every straight-line part of the methods that touches the ERS is one of the actions below; each is described
by the error messages it adds and a transformation of the list of elements (newest first).
-/

namespace F15
open Spec

set_option linter.unusedSectionVars false
variable {F : Type} [PyFloat F]

theorem slice_nat {α : Type} (s : List α) (i j : Nat) : slice s (i : Int) (j : Int) = (s.take j).drop i := by
  unfold slice pyIdx
  rw [if_neg (by omega), if_neg (by omega)]
  simp only [Int.toNat_natCast]
  have h1 : s.take (min j s.length) = s.take j := by
    rcases Nat.le_total j s.length with h | h
    · rw [Nat.min_eq_left h]
    · rw [Nat.min_eq_right h, List.take_of_length_le (Nat.le_refl _), List.take_of_length_le h]
  rw [h1]
  rcases Nat.le_total i s.length with h | h
  · rw [Nat.min_eq_left h]
  · rw [Nat.min_eq_right h, List.drop_eq_nil_of_le (by simp; omega), List.drop_eq_nil_of_le (by simp; omega)]

theorem sliceFrom_nat {α : Type} (s : List α) (i : Nat) : sliceFrom s (i : Int) = s.drop i := by
  unfold sliceFrom pyIdx
  rw [if_neg (by omega)]
  simp only [Int.toNat_natCast]
  rcases Nat.le_total i s.length with h | h
  · rw [Nat.min_eq_left h]
  · rw [Nat.min_eq_right h, List.drop_eq_nil_of_le (Nat.le_refl _), List.drop_eq_nil_of_le h]

/-! ### Positions -/

/-- Negate if `neg`. -/
def signed (neg : Bool) (x : F) : F := if neg then PyFloat.mul x (PyFloat.dec (-10) 1) else x

/-- degrees + minutes / 60.0 -/
def degMin (d m : Nat) : F := PyFloat.add (PyFloat.ofInt d) (PyFloat.div (PyFloat.ofInt m) (PyFloat.dec 600 1))

def latD (s : Str) : F := signed (slice s 2 3 = py! "S") (PyFloat.ofInt (numVal (slice s 0 2)))
def lonD (s : Str) : F := signed (slice s 6 7 = py! "W") (PyFloat.ofInt (numVal (slice s 3 6)))
def latM (s : Str) : F := signed (slice s 4 5 = py! "S") (degMin (numVal (slice s 0 2)) (numVal (slice s 2 4)))
def lonM (s : Str) : F := signed (slice s 10 11 = py! "W") (degMin (numVal (slice s 5 8)) (numVal (slice s 8 10)))

/-- Degrees and minutes form an angle of at most `max` degrees. -/
def degMinOk (max d m : Nat) : Bool := decide (m ≤ 59) && decide (d * 60 + m ≤ max * 60)

def degErr (s : Str) : List Nat :=
  (if numVal (slice s 0 2) > 90 then [42] else []) ++ (if numVal (slice s 3 6) > 180 then [44] else [])
def minErr (s : Str) : List Nat :=
  (if degMinOk 90 (numVal (slice s 0 2)) (numVal (slice s 2 4)) then [] else [43]) ++
    (if degMinOk 180 (numVal (slice s 5 8)) (numVal (slice s 8 10)) then [] else [45])
def brgErr (s : Str) : List Nat := if numVal (slice s (-6) (-3)) > 360 then [46] else []

/-- Messages of `assign_lat_long_bearing_distance`. -/
def posNums (t : Token) : List Nat :=
  match t.sub with
  | .PRP_BD => brgErr t.text
  | .LL_DEG => degErr t.text
  | .LL_MIN => minErr t.text
  | .LLBD_DEG => degErr t.text ++ brgErr t.text
  | .LLBD_MIN => minErr t.text ++ brgErr t.text
  | _ => []

def setPos (lat lon : F) (r : Record F) : Record F := { r with latitude := lat, longitude := lon, latLongValid := true }

/-- Replace the position by the point at bearing/distance. -/
def project (s : Str) (r : Record F) : Record F :=
  let p := PyFloat.direct r.latitude r.longitude (PyFloat.ofInt (numVal (slice s (-6) (-3))))
    (PyFloat.mul (PyFloat.ofInt (numVal (sliceFrom s (-3)))) (PyFloat.ofInt 1852))
  { r with latitude := p.1, longitude := p.2 }

/-- Element changes of `assign_lat_long_bearing_distance`. -/
def posRecs (t : Token) (l : List (Record F)) : List (Record F) :=
  match t.sub with
  | .LL_DEG => azimuthList (mapHead (setPos (latD t.text) (lonD t.text)) l)
  | .LL_MIN => azimuthList (mapHead (setPos (latM t.text) (lonM t.text)) l)
  | .LLBD_DEG => azimuthList (mapHead (project t.text)
      (azimuthList (mapHead (setPos (latD t.text) (lonD t.text)) l)))
  | .LLBD_MIN => azimuthList (mapHead (project t.text)
      (azimuthList (mapHead (setPos (latM t.text) (lonM t.text)) l)))
  | _ => l

theorem isDegree_digits {s : Str} (h : DigitStr s) (m : Nat) :
    Utils.isDegreeSemantics s (m : Int) = .ok (decide (numVal s ≤ m)) := by
  unfold Utils.isDegreeSemantics
  rw [pyInt_digits h]
  show Except.ok _ = Except.ok _
  congr 1
  simp

theorem isDegreeMinute_digits {d m : Str} (hd : DigitStr d) (hm : DigitStr m) (h2 : m.length = 2) (max : Nat) :
    Utils.isDegreeMinuteSemantics (d ++ m) (max : Int) (d.length : Int) =
      .ok (degMinOk max (numVal d) (numVal m)) := by
  unfold Utils.isDegreeMinuteSemantics
  have e1 : slice (d ++ m) 0 (d.length : Int) = d := by
    have := slice_nat (d ++ m) 0 d.length
    simp only [List.take_left, List.drop_zero] at this
    exact this
  have e2 : sliceFrom (d ++ m) (d.length : Int) = m := by
    rw [sliceFrom_nat]; simp
  have hdm : DigitStr (d ++ m) := by
    refine ⟨by simp [hd.1], fun c hc => ?_⟩
    rcases List.mem_append.1 hc with hc | hc
    · exact hd.2 c hc
    · exact hm.2 c hc
  rw [e1, e2, pyInt_digits hd, pyInt_digits hm, pyInt_digits hdm, numVal_append, h2]
  show (if (numVal d : Int) > max then (pure false : Except PyErr Bool) else
    if (numVal m : Int) > 59 then pure false else
      if ((numVal d * 10 ^ 2 + numVal m : Nat) : Int) > max * 100 then pure false else pure true) = _
  by_cases h : degMinOk max (numVal d) (numVal m) = true
  · rw [h]
    simp only [degMinOk, Bool.and_eq_true, decide_eq_true_eq] at h
    rw [if_neg (by omega), if_neg (by omega), if_neg (by omega)]; rfl
  · have h' : degMinOk max (numVal d) (numVal m) = false := by simpa using h
    rw [h']
    have hn : ¬ (numVal m ≤ 59 ∧ numVal d * 60 + numVal m ≤ max * 60) := by
      simpa only [degMinOk, Bool.and_eq_true, decide_eq_true_eq] using h
    by_cases c1 : (numVal d : Int) > max
    · rw [if_pos c1]; rfl
    · rw [if_neg c1]
      by_cases c2 : (numVal m : Int) > 59
      · rw [if_pos c2]; rfl
      · rw [if_neg c2, if_pos (by omega)]; rfl

theorem len1 {s : Str} (h : s.length = 1) : ∃ a, s = [a] := List.length_eq_one_iff.1 h
theorem len2 {s : Str} (h : s.length = 2) : ∃ a b, s = [a, b] := by
  match s, h with
  | [a, b], _ => exact ⟨a, b, rfl⟩
theorem len3 {s : Str} (h : s.length = 3) : ∃ a b c, s = [a, b, c] := by
  match s, h with
  | [a, b, c], _ => exact ⟨a, b, c, rfl⟩
theorem len4 {s : Str} (h : s.length = 4) : ∃ a b c d, s = [a, b, c, d] := by
  match s, h with
  | [a, b, c, d], _ => exact ⟨a, b, c, d, rfl⟩
theorem len5 {s : Str} (h : s.length = 5) : ∃ a b c d e, s = [a, b, c, d, e] := by
  match s, h with
  | [a, b, c, d, e], _ => exact ⟨a, b, c, d, e, rfl⟩
theorem len6 {s : Str} (h : s.length = 6) : ∃ a b c d e f, s = [a, b, c, d, e, f] := by
  match s, h with
  | [a, b, c, d, e, f], _ => exact ⟨a, b, c, d, e, f, rfl⟩

theorem ds2 {a b : Char} (ha : Digit a) (hb : Digit b) : DigitStr [a, b] :=
  ⟨by simp, by intro c hc; simp at hc; rcases hc with rfl | rfl <;> assumption⟩
theorem ds3 {a b c : Char} (ha : Digit a) (hb : Digit b) (hc : Digit c) : DigitStr [a, b, c] :=
  ⟨by simp, by intro x hx; simp at hx; rcases hx with rfl | rfl | rfl <;> assumption⟩

/-- The characters of a degree lat/long. -/
theorem latLon23 {s : Str} (h : LatLon 2 3 s) : ∃ a b h c d e k, s = [a, b, h, c, d, e, k] ∧
    Digit a ∧ Digit b ∧ Digit c ∧ Digit d ∧ Digit e ∧ h ∈ ['N', 'S'] ∧ k ∈ ['E', 'W'] := by
  obtain ⟨u, h, v, k, rfl, ⟨hl, hd⟩, hh, ⟨hl', hd'⟩, hk⟩ := h
  obtain ⟨a, b, rfl⟩ := len2 hl
  obtain ⟨c, d, e, rfl⟩ := len3 hl'
  exact ⟨a, b, h, c, d, e, k, rfl, hd a (by simp), hd b (by simp), hd' c (by simp), hd' d (by simp),
    hd' e (by simp), hh, hk⟩

/-- The characters of a degree/minute lat/long. -/
theorem latLon45 {s : Str} (h : LatLon 4 5 s) : ∃ a b c d h e f g i j k, s = [a, b, c, d, h, e, f, g, i, j, k] ∧
    Digit a ∧ Digit b ∧ Digit c ∧ Digit d ∧ Digit e ∧ Digit f ∧ Digit g ∧ Digit i ∧ Digit j ∧
    h ∈ ['N', 'S'] ∧ k ∈ ['E', 'W'] := by
  obtain ⟨u, h, v, k, rfl, ⟨hl, hd⟩, hh, ⟨hl', hd'⟩, hk⟩ := h
  obtain ⟨a, b, c, d, rfl⟩ := len4 hl
  obtain ⟨e, f, g, i, j, rfl⟩ := len5 hl'
  exact ⟨a, b, c, d, h, e, f, g, i, j, k, rfl, hd a (by simp), hd b (by simp), hd c (by simp), hd d (by simp),
    hd' e (by simp), hd' f (by simp), hd' g (by simp), hd' i (by simp), hd' j (by simp), hh, hk⟩

theorem does_assignLlDeg (t : Token) (a b h c d e k : Char) (x : Str) (ha : Digit a) (hb : Digit b) (hc : Digit c)
    (hd : Digit d) (he : Digit e) :
    Does (F := F) (assignLlDeg t ([a, b, h, c, d, e, k] ++ x)) t (degErr ([a, b, h, c, d, e, k] ++ x))
      (fun l => azimuthList (mapHead (setPos (latD ([a, b, h, c, d, e, k] ++ x)) (lonD ([a, b, h, c, d, e, k] ++ x))) l)) := by
  have s02 : slice ([a, b, h, c, d, e, k] ++ x) 0 2 = [a, b] := slice_nat _ 0 2
  have s03 : slice ([a, b, h, c, d, e, k] ++ x) 0 3 = [a, b, h] := slice_nat _ 0 3
  have s23 : slice ([a, b, h, c, d, e, k] ++ x) 2 3 = [h] := slice_nat _ 2 3
  have s36 : slice ([a, b, h, c, d, e, k] ++ x) 3 6 = [c, d, e] := slice_nat _ 3 6
  have s37 : slice ([a, b, h, c, d, e, k] ++ x) 3 7 = [c, d, e, k] := slice_nat _ 3 7
  have s67 : slice ([a, b, h, c, d, e, k] ++ x) 6 7 = [k] := slice_nat _ 6 7
  have elat : (latitudeOf [a, b, h] : Except PyErr F) = .ok (latD ([a, b, h, c, d, e, k] ++ x)) := by
    unfold latitudeOf latD
    rw [s02, s23]
    have e1 : slice [a, b, h] 0 2 = [a, b] := rfl
    have e2 : sliceFrom [a, b, h] (-1) = [h] := rfl
    rw [e1, e2, if_pos (by simp), pyFloat_digits (ds2 ha hb)]
    simp [signed]; rfl
  have elon : (longitudeOf [c, d, e, k] : Except PyErr F) = .ok (lonD ([a, b, h, c, d, e, k] ++ x)) := by
    unfold longitudeOf lonD
    rw [s36, s67]
    have e1 : slice [c, d, e, k] 0 3 = [c, d, e] := rfl
    have e2 : sliceFrom [c, d, e, k] (-1) = [k] := rfl
    rw [e1, e2, if_pos (by simp), pyFloat_digits (ds3 hc hd he)]
    simp [signed]; rfl
  unfold assignLlDeg assignLatitude assignLongitude
  rw [s03, s37, s02, s36, elat, elon]
  have n90 := isDegree_digits (ds2 ha hb) 90
  have n180 := isDegree_digits (ds3 hc hd he) 180
  refine Does.congr ((Does.lift rfl (does_modLast t _)).bind ((Does.lift rfl (does_modLast t _)).bind
    (Does.lift n90 ((does_errIf t 42 (by decide) _).bind (Does.lift n180 ((does_errIf t 44 (by decide) _).bind
      ((does_modLast t _).bind (does_azimuth t)))))))) ?_ ?_
  · simp only [degErr, s02, s36, List.nil_append, List.append_nil, Bool.not_eq_true', decide_eq_false_iff_not,
      Nat.not_le, gt_iff_lt]
  · intro l
    cases l with
    | nil => rfl
    | cons r rs => rfl

theorem does_assignLlDegMin (t : Token) (a b c d h e f g i j k : Char) (x : Str) (ha : Digit a) (hb : Digit b)
    (hc : Digit c) (hd : Digit d) (he : Digit e) (hf : Digit f) (hg : Digit g) (hi : Digit i) (hj : Digit j) :
    Does (F := F) (assignLlDegMin t ([a, b, c, d, h, e, f, g, i, j, k] ++ x)) t
      (minErr ([a, b, c, d, h, e, f, g, i, j, k] ++ x))
      (fun l => azimuthList (mapHead (setPos (latM ([a, b, c, d, h, e, f, g, i, j, k] ++ x))
        (lonM ([a, b, c, d, h, e, f, g, i, j, k] ++ x))) l)) := by
  have s02 : slice ([a, b, c, d, h, e, f, g, i, j, k] ++ x) 0 2 = [a, b] := slice_nat _ 0 2
  have s24 : slice ([a, b, c, d, h, e, f, g, i, j, k] ++ x) 2 4 = [c, d] := slice_nat _ 2 4
  have s04 : slice ([a, b, c, d, h, e, f, g, i, j, k] ++ x) 0 4 = [a, b] ++ [c, d] := slice_nat _ 0 4
  have s05 : slice ([a, b, c, d, h, e, f, g, i, j, k] ++ x) 0 5 = [a, b, c, d, h] := slice_nat _ 0 5
  have s45 : slice ([a, b, c, d, h, e, f, g, i, j, k] ++ x) 4 5 = [h] := slice_nat _ 4 5
  have s58 : slice ([a, b, c, d, h, e, f, g, i, j, k] ++ x) 5 8 = [e, f, g] := slice_nat _ 5 8
  have s80 : slice ([a, b, c, d, h, e, f, g, i, j, k] ++ x) 8 10 = [i, j] := slice_nat _ 8 10
  have s50 : slice ([a, b, c, d, h, e, f, g, i, j, k] ++ x) 5 10 = [e, f, g] ++ [i, j] := slice_nat _ 5 10
  have s51 : slice ([a, b, c, d, h, e, f, g, i, j, k] ++ x) 5 11 = [e, f, g, i, j, k] := slice_nat _ 5 11
  have s01 : slice ([a, b, c, d, h, e, f, g, i, j, k] ++ x) 10 11 = [k] := slice_nat _ 10 11
  have elat : (latitudeOf [a, b, c, d, h] : Except PyErr F) = .ok (latM ([a, b, c, d, h, e, f, g, i, j, k] ++ x)) := by
    unfold latitudeOf latM
    rw [s02, s24, s45]
    have e1 : slice [a, b, c, d, h] 0 2 = [a, b] := rfl
    have e3 : slice [a, b, c, d, h] 2 4 = [c, d] := rfl
    have e2 : sliceFrom [a, b, c, d, h] (-1) = [h] := rfl
    rw [e1, e2, e3, if_neg (by simp), pyFloat_digits (ds2 ha hb), pyFloat_digits (ds2 hc hd)]
    simp [signed, degMin]; rfl
  have elon : (longitudeOf [e, f, g, i, j, k] : Except PyErr F) =
      .ok (lonM ([a, b, c, d, h, e, f, g, i, j, k] ++ x)) := by
    unfold longitudeOf lonM
    rw [s58, s80, s01]
    have e1 : slice [e, f, g, i, j, k] 0 3 = [e, f, g] := rfl
    have e3 : slice [e, f, g, i, j, k] 3 5 = [i, j] := rfl
    have e2 : sliceFrom [e, f, g, i, j, k] (-1) = [k] := rfl
    rw [e1, e2, e3, if_neg (by simp), pyFloat_digits (ds3 he hf hg), pyFloat_digits (ds2 hi hj)]
    simp [signed, degMin]; rfl
  unfold assignLlDegMin assignLatitude assignLongitude
  rw [s05, s51, s04, s50, elat, elon]
  have n90 := isDegreeMinute_digits (ds2 ha hb) (ds2 hc hd) rfl 90
  have n180 := isDegreeMinute_digits (ds3 he hf hg) (ds2 hi hj) rfl 180
  refine Does.congr ((Does.lift rfl (does_modLast t _)).bind ((Does.lift rfl (does_modLast t _)).bind
    (Does.lift n90 ((does_errIf t 43 (by decide) _).bind (Does.lift n180 ((does_errIf t 45 (by decide) _).bind
      ((does_modLast t _).bind (does_azimuth t)))))))) ?_ ?_
  · simp only [minErr, s02, s24, s58, s80, List.nil_append, List.append_nil]
    congr 1
    · cases degMinOk 90 (numVal [a, b]) (numVal [c, d]) <;> rfl
    · cases degMinOk 180 (numVal [e, f, g]) (numVal [i, j]) <;> rfl
  · intro l
    cases l with
    | nil => rfl
    | cons r rs => rfl

theorem slice_neg_right {α : Type} (a b : List α) (i j : Nat) (hb : b.length = i) (hj : 0 < j) (hji : j ≤ i) :
    slice (a ++ b) (-(i : Int)) (-(j : Int)) = b.take (i - j) := by
  unfold slice pyIdx
  have : 0 < i := by omega
  rw [if_pos (by omega), if_pos (by omega)]
  have e1 : (-(j : Int) + ((a ++ b).length : Int)).toNat = a.length + (i - j) := by
    rw [List.length_append]; omega
  have e2 : (-(i : Int) + ((a ++ b).length : Int)).toNat = a.length := by
    rw [List.length_append]; omega
  rw [e1, e2, List.take_append, List.take_of_length_le (by omega), List.drop_left]
  congr 1; omega

theorem sliceFrom_neg_right {α : Type} (a b : List α) (i : Nat) (hb : i ≤ b.length) (hi : 0 < i) :
    sliceFrom (a ++ b) (-(i : Int)) = b.drop (b.length - i) := by
  unfold sliceFrom pyIdx
  rw [if_pos (by omega)]
  have e2 : (-(i : Int) + ((a ++ b).length : Int)).toNat = a.length + (b.length - i) := by
    rw [List.length_append]; omega
  rw [e2, List.drop_append, List.drop_eq_nil_of_le (by omega), List.nil_append]
  congr 1; omega

/-- Bearing and distance digits of a text ending in six digits. -/
theorem bd_slices (a b : Str) (hb : Digits 6 b) :
    DigitStr (slice (a ++ b) (-6) (-3)) ∧ DigitStr (sliceFrom (a ++ b) (-3)) := by
  obtain ⟨hl, hd⟩ := hb
  have h1 := slice_neg_right a b 6 3 hl (by decide) (by decide)
  have h2 := sliceFrom_neg_right a b 3 (by omega) (by decide)
  have h1' : slice (a ++ b) (-6) (-3) = b.take 3 := h1
  have h2' : sliceFrom (a ++ b) (-3) = b.drop (b.length - 3) := h2
  rw [h1', h2']
  refine ⟨⟨?_, fun c hc => hd c (List.mem_of_mem_take hc)⟩, ⟨?_, fun c hc => hd c (List.mem_of_mem_drop hc)⟩⟩
  · intro h
    have : (b.take 3).length = 3 := by rw [List.length_take]; omega
    rw [h] at this; simp at this
  · intro h
    have : (b.drop (b.length - 3)).length = 3 := by rw [List.length_drop]; omega
    rw [h] at this; simp at this

theorem does_assignBearingDistance (t : Token) (a b : Str) (hb : Digits 6 b) :
    Does (F := F) (assignBearingDistance t (a ++ b)) t (brgErr (a ++ b))
      (fun l => azimuthList (mapHead (project (a ++ b)) l)) := by
  obtain ⟨h1, h2⟩ := bd_slices a b hb
  unfold assignBearingDistance resolveRealBdPoint
  refine Does.congr (Does.lift (isDegree_digits h1 360) ((does_errIf t 46 (by decide) _).bind
    (Does.lift (pyFloat_digits h1) (Does.lift (pyFloat_digits h2) ((does_modLast t _).bind (does_azimuth t)))))) ?_ ?_
  · simp only [brgErr, List.append_nil, Bool.not_eq_true', decide_eq_false_iff_not,
      Nat.not_le, gt_iff_lt]
  · intro l
    cases l with
    | nil => rfl
    | cons r rs => rfl

/-- A typed token with a known subtype other than UNKNOWN is classified by the table. -/
theorem typed_sub {t : Token} (h : Typed t) (hs : t.sub ≠ .UNKNOWN) : (getTokenType t.text).2 = t.sub := by
  by_cases hb : t.base = .TOO_LONG
  · rcases typed_pair h with ⟨h1, h2⟩ | ⟨h1, h2⟩ | ⟨r, hr, h1, h2⟩
    · exact absurd h2 hs
    · exact absurd h2 hs
    · have := List.all_eq_true.1 table_no_unknown r hr
      rw [h1] at hb
      simp [hb] at this
  · rw [typed_types h hb]

theorem does_position (t : Token) (ht : Typed t) :
    Does (F := F) (assignLatLongBearingDistance t) t (posNums t) (posRecs t) := by
  unfold assignLatLongBearingDistance
  have hsub := c10_point_subtypes t.text
  split
  · rename_i h
    obtain ⟨n, a, b, hs, _, _, _, hb⟩ := hsub.2.2.2.2.1 (by rw [typed_sub ht (by rw [h]; decide), h])
    rw [hs]
    obtain ⟨h1, _⟩ := bd_slices a b hb
    refine Does.congr (Does.lift (isDegree_digits h1 360) (does_errIf t 46 (by decide) _)) ?_ ?_
    · simp only [posNums, h, hs, brgErr, Bool.not_eq_true', decide_eq_false_iff_not,
        Nat.not_le, gt_iff_lt]
    · intro l; simp [posRecs, h]
  · rename_i h
    obtain ⟨a, b, x, c, d, e, k, hs, ha, hb, hc, hd, he, _⟩ :=
      latLon23 (hsub.1.1 (by rw [typed_sub ht (by rw [h]; decide), h]))
    have := does_assignLlDeg (F := F) t a b x c d e k [] ha hb hc hd he
    rw [List.append_nil] at this
    rw [hs]
    exact this.congr (by simp only [posNums, h, hs]) fun l => by simp only [posRecs, h, hs]
  · rename_i h
    obtain ⟨a, b, c, d, x, e, f, g, i, j, k, hs, ha, hb, hc, hd, he, hf, hg, hi, hj, _⟩ :=
      latLon45 (hsub.2.1.1 (by rw [typed_sub ht (by rw [h]; decide), h]))
    have := does_assignLlDegMin (F := F) t a b c d x e f g i j k [] ha hb hc hd he hf hg hi hj
    rw [List.append_nil] at this
    rw [hs]
    exact this.congr (by simp only [posNums, h, hs]) fun l => by simp only [posRecs, h, hs]
  · rename_i h
    obtain ⟨u, v, hs, hu, hv⟩ := hsub.2.2.1.1 (by rw [typed_sub ht (by rw [h]; decide), h])
    obtain ⟨a, b, x, c, d, e, k, rfl, ha, hb, hc, hd, he, _⟩ := latLon23 hu
    have h1 := does_assignLlDeg (F := F) t a b x c d e k v ha hb hc hd he
    rw [hs]
    exact (h1.bind (does_assignBearingDistance t _ v hv)).congr (by simp only [posNums, h, hs]) fun l => by simp only [posRecs, h, hs]; rfl
  · rename_i h
    obtain ⟨u, v, hs, hu, hv⟩ := hsub.2.2.2.1.1 (by rw [typed_sub ht (by rw [h]; decide), h])
    obtain ⟨a, b, c, d, x, e, f, g, i, j, k, rfl, ha, hb, hc, hd, he, hf, hg, hi, hj, _⟩ := latLon45 hu
    have h1 := does_assignLlDegMin (F := F) t a b c d x e f g i j k v ha hb hc hd he hf hg hi hj
    rw [hs]
    exact (h1.bind (does_assignBearingDistance t _ v hv)).congr (by simp only [posNums, h, hs]) fun l => by simp only [posRecs, h, hs]; rfl
  · rename_i h1 h2 h3 h4 h5
    refine (does_pure t).congr ?_ fun l => ?_
    · unfold posNums
      split <;> first | rfl | (exfalso; simp_all)
    · unfold posRecs
      split <;> first | rfl | (exfalso; simp_all)

theorem does_checkPosition (t : Token) (ht : Typed t) :
    Does (F := F) (checkPosition t) t (posNums t) (posRecs t) := by
  unfold checkPosition whenM
  split
  · exact does_position t ht
  · rename_i h
    have : t.sub = .PRP ∨ t.sub = .PRP_AERO := by
      by_cases h1 : t.sub = .PRP
      · exact .inl h1
      · by_cases h2 : t.sub = .PRP_AERO
        · exact .inr h2
        · simp [h1, h2] at h
    rcases this with h | h
    · exact (does_pure t).congr (by simp [posNums, h]) fun l => by simp [posRecs, h]
    · exact (does_pure t).congr (by simp [posNums, h]) fun l => by simp [posRecs, h]

end F15
