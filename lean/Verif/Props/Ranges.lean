import Verif.Lemmas.Cause
import Verif.Lemmas.Distinct
import Verif.Props.Elements
/-!
# C29, C30, C36: ranges of angles, granularity of levels
-/

namespace F15
open Spec

set_option linter.unusedSectionVars false
variable {F : Type} [PyFloat F]

/-! ### C30 -/

/-- **C30** `is_degree_semantics` on a string of digits compares its value with the maximum. -/
theorem c30_degree {d : Str} (hne : d ≠ []) (hd : ∀ c ∈ d, Digit c) (max : Int) :
    Utils.isDegreeSemantics d max = .ok (decide ((numVal d : Int) ≤ max)) := by
  unfold Utils.isDegreeSemantics
  rw [pyInt_digits ⟨hne, hd⟩]
  rfl

/-- **C30** `is_degree_minute_semantics` on digits `d` followed by two minute digits `m`, split after `d`, is true
exactly if there are at most 59 minutes and the angle is at most the maximum. -/
theorem c30_degree_minute {d m : Str} (hne : d ≠ []) (hd : ∀ c ∈ d, Digit c) (hm : ∀ c ∈ m, Digit c) (h2 : m.length = 2)
    (max : Int) : ∃ b, Utils.isDegreeMinuteSemantics (d ++ m) max d.length = .ok b ∧
      (b = true ↔ numVal m ≤ 59 ∧ (numVal d * 60 + numVal m : Int) ≤ max * 60) := by
  have hm' : DigitStr m := by
    refine ⟨?_, hm⟩
    intro h; rw [h] at h2; cases h2
  by_cases hx : 0 ≤ max
  · obtain ⟨k, rfl⟩ := Int.eq_ofNat_of_zero_le hx
    refine ⟨_, isDegreeMinute_digits ⟨hne, hd⟩ hm' h2 k, ?_⟩
    simp only [degMinOk, Bool.and_eq_true, decide_eq_true_eq]
    omega
  · refine ⟨false, ?_, ?_⟩
    · unfold Utils.isDegreeMinuteSemantics
      have e1 : slice (d ++ m) 0 (d.length : Int) = d := by
        have := slice_nat (d ++ m) 0 d.length
        simp only [List.take_left, List.drop_zero] at this
        exact this
      rw [e1, pyInt_digits ⟨hne, hd⟩]
      show (if (numVal d : Int) > max then (pure false : Except PyErr Bool) else _) = _
      rw [if_pos (by omega)]; rfl
    · simp; omega

/-- The boundary: 90 degrees is allowed, 90 degrees and 1 minute, and 60 minutes, are not. -/
example : (Utils.isDegreeMinuteSemantics (py! "9000") 90 2).toOption = some true ∧
    (Utils.isDegreeMinuteSemantics (py! "9001") 90 2).toOption = some false ∧
    (Utils.isDegreeMinuteSemantics (py! "8960") 90 2).toOption = some false ∧
    (Utils.isDegreeMinuteSemantics (py! "17959") 180 3).toOption = some true ∧
    (Utils.isDegreeSemantics (py! "180") 180).toOption = some true ∧
    (Utils.isDegreeSemantics (py! "181") 180).toOption = some false := by
  decide +kernel

/-! ### C29 -/

theorem latDeg_iff (a b : Char) (r : Str) : LatDegBad (a :: b :: r) ↔ num2 a b > 90 := by
  constructor
  · rintro ⟨a', b', r', h, hb⟩
    simp only [List.cons.injEq] at h
    obtain ⟨rfl, rfl, _⟩ := h; exact hb
  · intro h; exact ⟨a, b, r, rfl, h⟩

theorem lonDeg_iff (a b h c d e : Char) (r : Str) : LonDegBad (a :: b :: h :: c :: d :: e :: r) ↔ num3 c d e > 180 := by
  constructor
  · rintro ⟨a', b', h', c', d', e', r', h, hb⟩
    simp only [List.cons.injEq] at h
    obtain ⟨rfl, rfl, rfl, rfl, rfl, rfl, _⟩ := h; exact hb
  · intro hh; exact ⟨a, b, h, c, d, e, r, rfl, hh⟩

theorem latMin_iff (a b c d : Char) (r : Str) :
    LatMinBad (a :: b :: c :: d :: r) ↔ (num2 c d > 59 ∨ num2 a b * 60 + num2 c d > 90 * 60) := by
  constructor
  · rintro ⟨a', b', c', d', r', h, hb⟩
    simp only [List.cons.injEq] at h
    obtain ⟨rfl, rfl, rfl, rfl, _⟩ := h; exact hb
  · intro h; exact ⟨a, b, c, d, r, rfl, h⟩

theorem lonMin_iff (a b c d h e f g i j : Char) (r : Str) :
    LonMinBad (a :: b :: c :: d :: h :: e :: f :: g :: i :: j :: r) ↔
      (num2 i j > 59 ∨ num3 e f g * 60 + num2 i j > 180 * 60) := by
  constructor
  · rintro ⟨a', b', c', d', h', e', f', g', i', j', r', h, hb⟩
    simp only [List.cons.injEq] at h
    obtain ⟨rfl, rfl, rfl, rfl, rfl, rfl, rfl, rfl, rfl, rfl, _⟩ := h; exact hb
  · intro hh; exact ⟨a, b, c, d, h, e, f, g, i, j, r, rfl, hh⟩

theorem deg_mem (a b h c d e k : Char) (x : Str) (n : Nat) :
    n ∈ degErr ([a, b, h, c, d, e, k] ++ x) ↔
      (n = 42 ∧ LatDegBad ([a, b, h, c, d, e, k] ++ x) ∨ n = 44 ∧ LonDegBad ([a, b, h, c, d, e, k] ++ x)) := by
  have s02 : slice ([a, b, h, c, d, e, k] ++ x) 0 2 = [a, b] := slice_nat _ 0 2
  have s36 : slice ([a, b, h, c, d, e, k] ++ x) 3 6 = [c, d, e] := slice_nat _ 3 6
  have l1 : LatDegBad ([a, b, h, c, d, e, k] ++ x) ↔ num2 a b > 90 := latDeg_iff a b _
  have l2 : LonDegBad ([a, b, h, c, d, e, k] ++ x) ↔ num3 c d e > 180 := lonDeg_iff a b h c d e _
  unfold degErr
  rw [s02, s36, numVal2, numVal3, l1, l2, List.mem_append]
  apply or_congr
  · by_cases hc : num2 a b > 90 <;> simp [hc]
  · by_cases hc : num3 c d e > 180 <;> simp [hc]

theorem min_mem (a b c d h e f g i j k : Char) (x : Str) (n : Nat) :
    n ∈ minErr ([a, b, c, d, h, e, f, g, i, j, k] ++ x) ↔
      (n = 43 ∧ LatMinBad ([a, b, c, d, h, e, f, g, i, j, k] ++ x) ∨
       n = 45 ∧ LonMinBad ([a, b, c, d, h, e, f, g, i, j, k] ++ x)) := by
  have s02 : slice ([a, b, c, d, h, e, f, g, i, j, k] ++ x) 0 2 = [a, b] := slice_nat _ 0 2
  have s24 : slice ([a, b, c, d, h, e, f, g, i, j, k] ++ x) 2 4 = [c, d] := slice_nat _ 2 4
  have s58 : slice ([a, b, c, d, h, e, f, g, i, j, k] ++ x) 5 8 = [e, f, g] := slice_nat _ 5 8
  have s80 : slice ([a, b, c, d, h, e, f, g, i, j, k] ++ x) 8 10 = [i, j] := slice_nat _ 8 10
  have l1 : LatMinBad ([a, b, c, d, h, e, f, g, i, j, k] ++ x) ↔ _ := latMin_iff a b c d _
  have l2 : LonMinBad ([a, b, c, d, h, e, f, g, i, j, k] ++ x) ↔ _ := lonMin_iff a b c d h e f g i j _
  have key : ∀ (n m max p q : Nat), n ∈ (if degMinOk max p q then [] else [m]) ↔ n = m ∧ (q > 59 ∨ p * 60 + q > max * 60) := by
    intro n m max p q
    cases hd : degMinOk max p q with
    | true =>
      simp only [degMinOk, Bool.and_eq_true, decide_eq_true_eq] at hd
      simp; omega
    | false =>
      have : ¬ (q ≤ 59 ∧ p * 60 + q ≤ max * 60) := by
        intro h; simp only [degMinOk, decide_eq_true h.1, decide_eq_true h.2] at hd; cases hd
      simp; omega
  unfold minErr
  rw [s02, s24, s58, s80, numVal2, numVal3, numVal2, numVal2, l1, l2, List.mem_append, key, key]

theorem brg_mem (u v : Str) (hv : Digits 6 v) (n : Nat) : n ∈ brgErr (u ++ v) ↔ n = 46 ∧ BearingBad (u ++ v) := by
  obtain ⟨a, b, c, d, e, f, rfl⟩ := len6 hv.1
  have s : slice (u ++ [a, b, c, d, e, f]) (-6) (-3) = [a, b, c] := slice_neg_right u _ 6 3 rfl (by decide) (by decide)
  have l : BearingBad (u ++ [a, b, c, d, e, f]) ↔ num3 a b c > 360 := by
    constructor
    · rintro ⟨u', a', b', c', d', e', f', heq, hb⟩
      have hq := (List.append_inj' heq rfl).2
      simp only [List.cons.injEq, and_true] at hq
      obtain ⟨rfl, rfl, rfl, rfl, rfl, rfl⟩ := hq
      exact hb
    · intro h; exact ⟨u, a, b, c, d, e, f, rfl, h⟩
  unfold brgErr
  rw [s, numVal3, l]
  by_cases hc : num3 a b c > 360 <;> simp [hc]

/-- The messages of a point token are its range faults. -/
theorem range_iff {t : Token} (ht : Typed t) (n : Nat) : n ∈ posNums t ↔ RangeFault t.sub t.text n := by
  have hsub := c10_point_subtypes t.text
  unfold RangeFault posNums
  split
  · rename_i h
    obtain ⟨m, a, b, hs, _, _, _, hb⟩ := hsub.2.2.2.2.1 (by rw [typed_sub ht (by rw [h]; decide), h])
    rw [h, hs, brg_mem a b hb]; simp
  · rename_i h
    obtain ⟨a, b, x, c, d, e, k, hs, _⟩ := latLon23 (hsub.1.1 (by rw [typed_sub ht (by rw [h]; decide), h]))
    have := deg_mem a b x c d e k [] n
    rw [List.append_nil] at this
    rw [h, hs, this]; simp
  · rename_i h
    obtain ⟨a, b, c, d, x, e, f, g, i, j, k, hs, _⟩ := latLon45 (hsub.2.1.1 (by rw [typed_sub ht (by rw [h]; decide), h]))
    have := min_mem a b c d x e f g i j k [] n
    rw [List.append_nil] at this
    rw [h, hs, this]; simp
  · rename_i h
    obtain ⟨u, v, hs, hu, hv⟩ := hsub.2.2.1.1 (by rw [typed_sub ht (by rw [h]; decide), h])
    obtain ⟨a, b, x, c, d, e, k, rfl, _⟩ := latLon23 hu
    rw [h, hs, List.mem_append, deg_mem, brg_mem _ v hv]; simp
  · rename_i h
    obtain ⟨u, v, hs, hu, hv⟩ := hsub.2.2.2.1.1 (by rw [typed_sub ht (by rw [h]; decide), h])
    obtain ⟨a, b, c, d, x, e, f, g, i, j, k, rfl, _⟩ := latLon45 hu
    rw [h, hs, List.mem_append, min_mem, brg_mem _ v hv]; simp
  · simp_all

theorem fault_num {u : SubType} {s : Str} {n : Nat} (h : RangeFault u s n) : 42 ≤ n ∧ n ≤ 46 := by
  unfold RangeFault at h; omega

theorem fault_point {t : Token} (ht : Typed t) {n : Nat} {s : Str} (h : RangeFault t.sub s n) : t.base = .POINT := by
  have hs : t.sub = .LL_DEG ∨ t.sub = .LLBD_DEG ∨ t.sub = .LL_MIN ∨ t.sub = .LLBD_MIN ∨ t.sub = .PRP_BD := by
    unfold RangeFault at h
    rcases h with ⟨h | h, _⟩ | ⟨h | h, _⟩ | ⟨h | h | h, _⟩ <;> simp [h]
  rcases typed_pair ht with ⟨_, h2⟩ | ⟨_, h2⟩ | ⟨r, hr, h1, h2⟩
  · rw [h2] at hs; simp at hs
  · rw [h2] at hs; simp at hs
  · have : (table.all fun r => decide (r.base = .POINT) || ![SubType.LL_DEG, .LLBD_DEG, .LL_MIN, .LLBD_MIN, .PRP_BD].contains r.sub) = true := by
      decide +kernel
    have := List.all_eq_true.1 this r hr
    rw [h2] at hs
    rw [h1]
    simp only [Bool.or_eq_true, decide_eq_true_eq] at this
    rcases this with h | h
    · exact h
    · rcases hs with hs | hs | hs | hs | hs <;> rw [hs] at h <;> exact absurd h (by decide)

theorem errs_40_46 {T : List Token} (hT : ∀ t ∈ T, Typed t) {a : Act} (ha : a.tok ∈ T) (hw : a.Why) {n : Nat} (hn : n ∈ a.nums) :
    (errorMessage n).isSome ∧ (42 ≤ n → n ≤ 46 → RangeFault a.tok.sub a.tok.text n) ∧
    (n = 40 → (∃ t, a = .level t ∨ a = .plus t ∨ a = .levels t)) := by
  have pn : ∀ t ∈ T, n ∈ posNums t → (errorMessage n).isSome ∧ (42 ≤ n → n ≤ 46 → RangeFault t.sub t.text n) ∧
      (n = 40 → (∃ t, a = .level t ∨ a = .plus t ∨ a = .levels t)) := by
    intro t ht h
    have hf := (range_iff (hT t ht) n).1 h
    have := fault_num hf
    refine ⟨?_, fun _ _ => hf, fun h => by omega⟩
    have : n = 42 ∨ n = 43 ∨ n = 44 ∨ n = 45 ∨ n = 46 := by omega
    rcases this with h | h | h | h | h <;> subst h <;> decide
  have gn : ∀ s, n ∈ granErr s → n = 40 := by
    intro s h
    unfold granErr at h
    split at h <;> simp at h
    exact h
  have gr : n = 40 → (∃ t, a = .level t ∨ a = .plus t ∨ a = .levels t) → (errorMessage n).isSome ∧
      (42 ≤ n → n ≤ 46 → RangeFault a.tok.sub a.tok.text n) ∧ (n = 40 → (∃ t, a = .level t ∨ a = .plus t ∨ a = .levels t)) := by
    rintro rfl h
    exact ⟨by decide, fun h => by omega, fun _ => h⟩
  cases a with
  | err t m =>
    simp [Act.nums] at hn; subst hn
    have hw : plainErr n = true := hw
    refine ⟨plainErr.isSome hw, fun h1 h2 => ?_, fun h => ?_⟩
    · have : n = 42 ∨ n = 43 ∨ n = 44 ∨ n = 45 ∨ n = 46 := by omega
      rcases this with h | h | h | h | h <;> subst h <;> exact absurd hw (by decide)
    · subst h; exact absurd hw (by decide)
  | point t | vToI t | ccPoint t => exact pn _ ha hn
  | level t => exact gr (gn _ hn) ⟨t, .inl rfl⟩
  | plus t => exact gr (gn _ hn) ⟨t, .inr (.inl rfl)⟩
  | levels t =>
    refine gr ?_ ⟨t, .inr (.inr rfl)⟩
    rcases List.mem_append.1 hn with h | h
    · exact gn _ h
    · exact gn _ h
  | _ => simp [Act.nums] at hn

/-- The error list of a parse of an empty field 15. -/
theorem empty_errors {frames : Nat} {tokens : Tokens} {b : Bool} {e' : Ers F}
    (h : parseF15 frames Ers.new tokens = .ok (b, e')) (hn : typedTokens tokens = []) : ∀ x ∈ e'.errors,
    ErrorIs ⟨py! "NULL", 0, 0, .UNKNOWN, .UNKNOWN⟩ 41 x := by
  rcases parse_cases new_ne h with ⟨_, _, rfl⟩ | ⟨t, rest, e1, htt, _⟩
  · intro x hx
    have hx : x ∈ [nullErr (F := F)] := hx
    rw [List.mem_singleton] at hx
    subst hx
    exact errRec_is (t := ⟨py! "NULL", 0, 0, .UNKNOWN, .UNKNOWN⟩) (by decide)
  · rw [hn] at htt; cases htt

/-- **C29 (only if)** Every error record with a range message 42 to 46 is about a point token of the field 15 that is
out of range in the way the message says. -/
theorem c29_only_faults {frames : Nat} {tokens : Tokens} {b : Bool} {e' : Ers F}
    (h : parseF15 frames Ers.new tokens = .ok (b, e')) {x : Record F} (hx : x ∈ e'.errors) {t : Token} {n : Nat}
    (hn : 42 ≤ n ∧ n ≤ 46) (he : ErrorIs t n x) : t ∈ typedTokens tokens ∧ t.base = .POINT ∧ RangeFault t.sub t.text n := by
  have hT : ∀ t' ∈ typedTokens tokens, Typed t' := fun _ h => typed_map h
  by_cases hne : typedTokens tokens = []
  · obtain ⟨_, h1⟩ := error_unique (.inr hn) he (empty_errors h hne x hx)
    omega
  · obtain ⟨a, ha, hw, m, hm, rfl⟩ := (parse_cause h).2.1 hne x hx
    obtain ⟨h1, h2, _⟩ := errs_40_46 hT ha hw hm
    obtain ⟨e1, e2⟩ := error_unique (.inr hn) he (errRec_is h1)
    subst e1 e2
    have := h2 hn.1 hn.2
    exact ⟨ha, fault_point (hT _ ha) this, this⟩

/-- The token of an element. -/
theorem element_cause {frames : Nat} {tokens : Tokens} {b : Bool} {e' : Ers F}
    (h : parseF15 frames Ers.new tokens = .ok (b, e')) {r : Record F} (hr : r ∈ e'.elements) {n : Nat}
    (hf : RangeFault r.sub r.name n) :
    (∃ t ∈ typedTokens tokens, t = ⟨r.name, r.start, r.stop, r.base, r.sub⟩ ∧ errRec t n ∈ e'.errors) ∨
    (r.latLongValid = false ∧ ∃ pre w t sl sp rest, typedTokens tokens = pre ++ w :: t :: sl :: sp :: rest ∧ w.sub = .IFR ∧
      t = ⟨r.name, r.start, r.stop, r.base, r.sub⟩ ∧ sl.base = .SLASH ∧ sp.base = .SPEED_VFR) := by
  have hT : ∀ t' ∈ typedTokens tokens, Typed t' := fun _ h => typed_map h
  have nosub : ∀ u : SubType, u = .PRP_AERO ∨ u = .SID ∨ u = .SID_LITERAL ∨ u = .STAR ∨ u = .STAR_LITERAL → ¬ RangeFault u r.name n := by
    intro u hu hf
    unfold RangeFault at hf
    rcases hu with rfl | rfl | rfl | rfl | rfl <;> simp at hf
  rcases (parse_cause h).1 r hr with (h1 | ⟨x, rfl⟩) | ⟨a, hrec, ha, hk, hc, hn⟩
  · have : r.sub = .PRP_AERO := (congrArg Record.sub h1 : (core r).sub = _)
    exact absurd (this ▸ hf) (nosub _ (.inl rfl))
  · exact absurd hf (nosub _ (.inl rfl))
  · have f1 : r.name = (a.coreRec F).name := (congrArg Record.name hc : (core r).name = _)
    have f2 : r.start = (a.coreRec F).start := (congrArg Record.start hc : (core r).start = _)
    have f3 : r.stop = (a.coreRec F).stop := (congrArg Record.stop hc : (core r).stop = _)
    have f4 : r.base = (a.coreRec F).base := (congrArg Record.base hc : (core r).base = _)
    have f5 : r.sub = (a.coreRec F).sub := (congrArg Record.sub hc : (core r).sub = _)
    have f6 : r.latLongValid = (a.coreRec F).latLongValid := (congrArg Record.latLongValid hc : (core r).latLongValid = _)
    have pos : ∀ (t : Token) (p : Record F), (posHead t p).name = p.name ∧ (posHead t p).start = p.start ∧ (posHead t p).stop = p.stop ∧
        (posHead t p).base = p.base ∧ (posHead t p).sub = p.sub := by
      intro t p; unfold posHead; cases t.sub <;> exact ⟨rfl, rfl, rfl, rfl, rfl⟩
    have point : ∀ t : Token, a.tok = t → a.nums = posNums t → r.name = t.text → r.start = t.start → r.stop = t.stop →
        r.base = t.base → r.sub = t.sub →
        (∃ t ∈ typedTokens tokens, t = ⟨r.name, r.start, r.stop, r.base, r.sub⟩ ∧ errRec t n ∈ e'.errors) := by
      intro t e0 e1 e2 e3 e4 e5 e6
      refine ⟨t, e0 ▸ ha, by rw [e2, e3, e4, e5, e6], ?_⟩
      rw [← e0]
      refine hn n ?_
      rw [e1]
      refine (range_iff (hT t (e0 ▸ ha)) n).2 ?_
      rw [← e6, ← e2]; exact hf
    have other : ∀ t : Token, a.tok = t → r.sub = t.sub → t.base ≠ .POINT → False := by
      intro t e0 e1 e2
      exact e2 (fault_point (hT t (e0 ▸ ha)) (e1 ▸ hf))
    cases a with
    | point t =>
      obtain ⟨p1, p2, p3, p4, p5⟩ := pos t (toIfr (fresh (Record.new [] 0 0 .UNKNOWN .UNKNOWN) t))
      exact .inl (point t rfl rfl (f1.trans p1) (f2.trans p2) (f3.trans p3) (f4.trans p4) (f5.trans p5))
    | vToI t =>
      obtain ⟨p1, p2, p3, p4, p5⟩ := pos t (fresh (Record.new [] 0 0 .UNKNOWN .UNKNOWN) t)
      exact .inl (point t rfl rfl (f1.trans p1) (f2.trans p2) (f3.trans p3) (f4.trans p4) (f5.trans p5))
    | ccPoint t =>
      obtain ⟨p1, p2, p3, p4, p5⟩ := pos t (fresh (Record.new [] 0 0 .UNKNOWN .UNKNOWN) t)
      exact .inl (point t rfl rfl (f1.trans p1) (f2.trans p2) (f3.trans p3) (f4.trans p4) (f5.trans p5))
    | vToIToV t =>
      obtain ⟨_, pre, w, sl, sp, rest, h2, hw, h3, h4⟩ := hk
      refine .inr ⟨f6, pre, w, t, sl, sp, rest, h2, hw, ?_, h3, h4⟩
      rw [f1, f2, f3, f4, f5]; rfl
    | route t => exact (other t rfl f5 (by rw [hk]; decide)).elim
    | plain t => exact (other t rfl f5 (by intro h; rcases hk with h' | h' | h' | h' | h' <;> rw [h'] at h <;> cases h)).elim
    | brk t =>
      have hb : ∀ q : Record F, (brkRules t.sub q).sub = q.sub := by
        intro q; unfold brkRules; cases t.sub <;> rfl
      have : r.sub = t.sub := f5.trans (hb _)
      exact (other t rfl this (by rw [hk]; decide)).elim
    | sid t =>
      have f5 : r.sub = (if t.text = py! "SID" then SubType.SID_LITERAL else .SID) := f5
      refine absurd hf (nosub _ ?_)
      rw [f5]
      split <;> simp
    | star t =>
      have f5 : r.sub = (if t.text = py! "STAR" then SubType.STAR_LITERAL else .STAR) := f5
      refine absurd hf (nosub _ ?_)
      rw [f5]
      split <;> simp
    | vfr t => exact (other t rfl f5 (by rw [hk]; decide)).elim
    | _ => simp [Act.records] at hrec

/-- **C29 (exactly, partial)** For every element and every range message: the message is reported for the token of the
element exactly if the element is out of range in that way, unless its token comes directly after a word IFR and is directly
followed by `/` and a SPEED/VFR. What is missing: the point at which IFR is joined and left again at once (`c29_false`). -/
theorem c29_partial {frames : Nat} {tokens : Tokens} {b : Bool} {e' : Ers F}
    (h : parseF15 frames Ers.new tokens = .ok (b, e')) {r : Record F} (hr : r ∈ e'.elements) {n : Nat} (hn : 42 ≤ n ∧ n ≤ 46)
    (hv : ¬ ∃ pre w t sl sp rest, typedTokens tokens = pre ++ w :: t :: sl :: sp :: rest ∧ w.sub = .IFR ∧
      t = ⟨r.name, r.start, r.stop, r.base, r.sub⟩ ∧ sl.base = .SLASH ∧ sp.base = .SPEED_VFR) :
    (∃ x ∈ e'.errors, ErrorIs ⟨r.name, r.start, r.stop, r.base, r.sub⟩ n x) ↔ RangeFault r.sub r.name n := by
  constructor
  · rintro ⟨x, hx, he⟩
    exact (c29_only_faults h hx hn he).2.2
  · intro hf
    rcases element_cause h hr hf with ⟨t, _, rfl, hx⟩ | ⟨_, h2⟩
    · refine ⟨_, hx, errRec_is ?_⟩
      have : n = 42 ∨ n = 43 ∨ n = 44 ∨ n = 45 ∨ n = 46 := by omega
      rcases this with h | h | h | h | h <;> subst h <;> decide
    · exact absurd h2 hv

/-- **C29** The same without exception for elements that have a position. -/
theorem c29_positions {frames : Nat} {tokens : Tokens} {b : Bool} {e' : Ers F}
    (h : parseF15 frames Ers.new tokens = .ok (b, e')) {r : Record F} (hr : r ∈ e'.elements) {n : Nat} (hn : 42 ≤ n ∧ n ≤ 46)
    (hv : r.latLongValid = true) :
    (∃ x ∈ e'.errors, ErrorIs ⟨r.name, r.start, r.stop, r.base, r.sub⟩ n x) ↔ RangeFault r.sub r.name n := by
  constructor
  · rintro ⟨x, hx, he⟩
    exact (c29_only_faults h hx hn he).2.2
  · intro hf
    rcases element_cause h hr hf with ⟨t, _, rfl, hx⟩ | ⟨h2, _⟩
    · refine ⟨_, hx, errRec_is ?_⟩
      have : n = 42 ∨ n = 43 ∨ n = 44 ∨ n = 45 ∨ n = 46 := by omega
      rcases this with h | h | h | h | h <;> subst h <;> decide
    · rw [hv] at h2; cases h2

theorem no_errors {frames : Nat} {tokens : Tokens} {e' : Ers F} (h : parseF15 frames Ers.new tokens = .ok (true, e')) :
    e'.errors = [] := by
  rcases parse_cases new_ne h with ⟨_, hb, _⟩ | ⟨t, rest, e1, htt, _, _, hb, rfl⟩
  · cases hb
  · show (finErs (post t e1)).errs.reverse = []
    rw [show (finErs (post t e1)).errs = e1.errs by unfold finErs post; split <;> rfl]
    have := of_decide_eq_true hb.symm
    rw [this]; rfl

/-- **C29** In an accepted field 15 no element with a position is out of range. -/
theorem c29_accepted {frames : Nat} {tokens : Tokens} {e' : Ers F} (h : parseF15 frames Ers.new tokens = .ok (true, e'))
    {r : Record F} (hr : r ∈ e'.elements) (hv : r.latLongValid = true) (n : Nat) : ¬ RangeFault r.sub r.name n := by
  intro hf
  obtain ⟨x, hx, _⟩ := (c29_positions h hr (fault_num hf) hv).2 hf
  have : e'.errors = [] := no_errors h
  rw [this] at hx; simp at hx

/-- All five messages occur. -/
example : check (py! "N0450F350 91N010E 50N181E 5060N01000E 5000N18001E PNT361020 90N180W")
    (fun b e => !b && decide (e.errors.map (·.errorText.take 16) = [py! "Latitude degree ", py! "Longitude degree",
      py! "Latitude degree/", py! "Longitude degree", py! "Bearing degree v"])) = true := by decide +kernel

/-- **C29 (refutation)** In `N0120VFR ABC IFR 91N010E/N0120VFR`, which is accepted, the point `91N010E` is out of range. -/
theorem c29_false : ∃ s : Str, ∃ e', parseText s = .ok (true, e') ∧ e'.errors = [] ∧
    ∃ r ∈ e'.elements, RangeFault r.sub r.name 42 := by
  refine ⟨py! "N0120VFR ABC IFR 91N010E/N0120VFR", ?_⟩
  obtain ⟨b, e', h1, h2⟩ := check_ok (s := py! "N0120VFR ABC IFR 91N010E/N0120VFR")
    (p := fun b e => b && decide (e.errors.length = 0) && e.elements.any fun r => decide (r.sub = .LL_DEG) && decide (r.name = py! "91N010E")) (by decide +kernel)
  simp only [Bool.and_eq_true, List.any_eq_true, decide_eq_true_eq] at h2
  obtain ⟨⟨rfl, h0⟩, r, hr, h3, h4⟩ := h2
  refine ⟨e', h1, List.length_eq_zero_iff.1 h0, r, hr, ?_⟩
  rw [h3, h4]
  exact .inl ⟨.inl rfl, .inl ⟨rfl, '9', '1', _, rfl, by decide⟩⟩

/-! ### C36 -/

/-- A flight level that is not a multiple of five: `F` followed by a number not divisible by 5. -/
def Spec.OddLevel (lv : Str) : Prop := ∃ d, lv = 'F' :: d ∧ numVal d % 5 ≠ 0

theorem gran_odd {lv : Str} : (granErr lv = [40] ↔ OddLevel lv) ∧ (granErr lv = [] ↔ ¬ OddLevel lv) := by
  have h0 : granErr lv = [] ↔ ¬ OddLevel lv := by
    rw [gran_iff]
    constructor
    · rintro h ⟨d, h1, h2⟩; exact h2 (h d h1)
    · intro h d hd
      exact Decidable.byContradiction fun hc => h ⟨d, hd, hc⟩
  refine ⟨?_, h0⟩
  constructor
  · intro h
    refine Classical.byContradiction fun hc => ?_
    rw [h0.2 hc] at h; cases h
  · intro h
    have : granErr lv ≠ [] := fun hc => h0.1 hc h
    unfold granErr at this ⊢
    split
    · rfl
    · rename_i hn; rw [if_neg hn] at this; exact absurd rfl this

/-- **C36** Assigning a level (a letter and digits), as the level or as the level climbed to, succeeds and appends
exactly one error, message 40 for the given token, if the level is a flight level not divisible by five, and leaves the
errors alone otherwise. -/
theorem c36 (t : Token) (u : Char) (d : Str) (hne : d ≠ []) (hd : ∀ c ∈ d, Digit c) (cruise : Bool) (e : Ers F)
    (he : e.elements ≠ []) (ts : List Token) :
    ∃ e', assignAltitude (F := F) t (u :: d) cruise ⟨e, ts⟩ = .ok ((), ⟨e', ts⟩) ∧
      (OddLevel (u :: d) → ∃ x, ErrorIs t 40 x ∧ e'.errors = e.errors ++ [x]) ∧
      (¬ OddLevel (u :: d) → e'.errors = e.errors) := by
  have he' : e.recs ≠ [] := by intro h; apply he; unfold Ers.elements; rw [h]; rfl
  have hu : Unit1 (u :: d) := ⟨u, d, rfl, ⟨hne, hd⟩⟩
  have fin : ∀ g : List (Record F) → List (Record F), 
      (OddLevel (u :: d) → ∃ x, ErrorIs t 40 x ∧ (upd t (granErr (u :: d)) g e).errors = e.errors ++ [x]) ∧
      (¬ OddLevel (u :: d) → (upd t (granErr (u :: d)) g e).errors = e.errors) := by
    intro g
    refine ⟨fun h => ?_, fun h => ?_⟩
    · refine ⟨errRec t 40, errRec_is (by decide), ?_⟩
      rw [gran_odd.1.2 h]
      simp [upd, Ers.errors]
    · rw [gran_odd.2.2 h]
      simp [upd, Ers.errors]
  cases cruise with
  | false => exact ⟨_, (does_assignAltitude t _ hu).run e ts he', fin _⟩
  | true => exact ⟨_, (does_assignCruise t _ hu).run e ts he', fin _⟩

/-- **C36 (whole field)** Every error record with message 40 is about a token of the field 15 that contains a flight
level not divisible by five and sets a level. -/
theorem c36_only_odd {frames : Nat} {tokens : Tokens} {b : Bool} {e' : Ers F}
    (h : parseF15 frames Ers.new tokens = .ok (b, e')) {x : Record F} (hx : x ∈ e'.errors) {t : Token}
    (he : ErrorIs t 40 x) : t ∈ typedTokens tokens ∧
      (t.base = .SPEED_ALTITUDE ∨ t.base = .SPEED_ALTITUDE_ALTITUDE ∨ t.base = .SPEED_ALTITUDE_PLUS) ∧
      ∃ lv, OddLevel lv ∧ lv <:+: t.text := by
  have hT : ∀ t' ∈ typedTokens tokens, Typed t' := fun _ h => typed_map h
  by_cases hne : typedTokens tokens = []
  · obtain ⟨_, h1⟩ := error_unique (.inl rfl) he (empty_errors h hne x hx)
    omega
  · obtain ⟨a, ha, hw, m, hm, rfl⟩ := (parse_cause h).2.1 hne x hx
    obtain ⟨h1, _, h2⟩ := errs_40_46 hT ha hw hm
    obtain ⟨e1, e2⟩ := error_unique (.inl rfl) he (errRec_is h1)
    subst e1 e2
    have odd : ∀ {lv : Str}, 40 ∈ granErr lv → OddLevel lv := by
      intro lv hg
      refine Classical.byContradiction fun hc => ?_
      rw [gran_odd.2.2 hc] at hg; simp at hg
    obtain ⟨t, rfl | rfl | rfl⟩ := h2 rfl
    · obtain ⟨_, _, h3⟩ := level_facts (hT t ha) hw
      exact ⟨ha, .inl hw, _, odd hm, _, [], by rw [List.append_nil]; exact h3.symm⟩
    · obtain ⟨_, _, _, h3⟩ := plus_facts (hT t ha) hw
      exact ⟨ha, .inr (.inr hw), _, odd hm, _, _, by rw [List.append_assoc]; exact h3.symm⟩
    · obtain ⟨_, _, h5, _, h3⟩ := levels_facts (hT t ha) hw.1 hw.2
      refine ⟨ha, .inr (.inl hw.1), ?_⟩
      rcases List.mem_append.1 hm with hm | hm
      · exact ⟨_, odd hm, _, _, by rw [List.append_assoc]; exact h3.symm⟩
      · refine ⟨_, odd hm, ?_⟩
        have : lv2Of t.text <:+ tailOf t.text := by
          unfold lv2Of; split
          · exact List.suffix_refl _
          · exact List.drop_suffix _ _
        refine List.IsInfix.trans this.isInfix ?_
        exact ⟨spOf t.text ++ lv1Of t.text, [], by rw [List.append_nil, List.append_assoc]; exact h3.symm⟩

/-- **C36 (whole field)** Whenever an element ends up with a flight level not divisible by five, message 40 has been
reported for a token that contains this level. -/
theorem c36_reported {frames : Nat} {tokens : Tokens} {b : Bool} {e' : Ers F}
    (h : parseF15 frames Ers.new tokens = .ok (b, e')) {r : Record F} (hr : r ∈ e'.elements) (ho : OddLevel r.altitude) :
    ∃ t ∈ typedTokens tokens, r.altitude <:+: t.text ∧ ∃ x ∈ e'.errors, ErrorIs t 40 x := by
  obtain ⟨t, h1, h2, h3⟩ := ((parse_cause h).2.2 r hr).2 (by rw [gran_odd.1.2 ho]; simp)
  exact ⟨t, h1, h2, _, h3, errRec_is (by decide)⟩

/-- **C36 (accepted)** In an accepted field 15 every flight level of an element is a multiple of five. -/
theorem c36_accepted {frames : Nat} {tokens : Tokens} {e' : Ers F} (h : parseF15 frames Ers.new tokens = .ok (true, e'))
    {r : Record F} (hr : r ∈ e'.elements) : ¬ OddLevel r.altitude := by
  intro ho
  obtain ⟨_, _, _, x, hx, _⟩ := c36_reported h hr ho
  rw [no_errors h] at hx; simp at hx

/-- Message 40 occurs once for `F351` and not for `F350`, `A051` or `M1131`. -/
example : check (py! "N0450F351 ABC/N0450F350 DEF/N0450A051 GHI/N0450M1131")
    (fun b e => !b && decide (e.errors.map (fun r => (r.name, r.errorText)) =
      [(py! "N0450F351", py! "The flight level 'N0450F351' must end in a zero or 5")])) = true := by decide +kernel

end F15
