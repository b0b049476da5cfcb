import Verif.Spec.Regex
/-! The backtracking matcher decides the language; every expression of bounded repetition is a finite
union of *class words* (fixed-length sequences of character classes). -/

namespace F15
open Spec

theorem Cls.has_iff (k : Cls) (c : Char) : k.has c = true ↔ ∃ lo hi, (lo, hi) ∈ k ∧ lo ≤ c ∧ c ≤ hi := by
  simp [Cls.has, List.any_eq_true]

theorem repK_spec {f : Str → (Str → Bool) → Bool} {P : Str → Prop}
    (hf : ∀ s k, f s k = true ↔ ∃ u v, s = u ++ v ∧ P u ∧ k v = true) :
    ∀ (hi lo : Nat) (s : Str) (k : Str → Bool), repK f lo hi s k = true ↔
      ∃ l : List Str, lo ≤ l.length ∧ l.length ≤ hi ∧ (∀ x ∈ l, P x) ∧ ∃ v, s = l.flatten ++ v ∧ k v = true := by
  intro hi
  induction hi with
  | zero =>
    intro lo s k
    simp only [repK, Bool.and_eq_true, beq_iff_eq]
    constructor
    · rintro ⟨rfl, hk⟩
      exact ⟨[], by simp, by simp, by simp, s, by simp, hk⟩
    · rintro ⟨l, h1, h2, _, v, hs, hk⟩
      obtain rfl : l = [] := by simpa using h2
      simp at h1 hs
      subst hs
      exact ⟨by omega, hk⟩
  | succ hi ih =>
    intro lo s k
    simp only [repK, Bool.or_eq_true, Bool.and_eq_true, beq_iff_eq, hf, ih]
    constructor
    · rintro (⟨rfl, hk⟩ | ⟨u, v, rfl, hu, l, h1, h2, h3, w, rfl, hk⟩)
      · exact ⟨[], by simp, by simp, by simp, s, by simp, hk⟩
      · refine ⟨u :: l, by simp; omega, by simp; omega, ?_, w, by simp, hk⟩
        intro x hx
        rcases List.mem_cons.1 hx with rfl | hx
        · exact hu
        · exact h3 x hx
    · rintro ⟨l, h1, h2, h3, v, rfl, hk⟩
      cases l with
      | nil => left; simp at h1; exact ⟨by omega, by simpa using hk⟩
      | cons u l =>
        right
        refine ⟨u, l.flatten ++ v, by simp, h3 u (by simp), l, ?_, ?_, fun x hx => h3 x (by simp [hx]), v, rfl, hk⟩
        · simp at h1; omega
        · simp at h2; omega

theorem matchK_spec : ∀ (r : Re) (s : Str) (k : Str → Bool),
    r.matchK s k = true ↔ ∃ u v, s = u ++ v ∧ Lang r u ∧ k v = true := by
  intro r
  induction r with
  | eps =>
    intro s k
    simp only [Re.matchK, Lang]
    constructor
    · intro h; exact ⟨[], s, by simp, rfl, h⟩
    · rintro ⟨u, v, rfl, rfl, h⟩; simpa using h
  | cls c =>
    intro s k
    cases s with
    | nil =>
      simp only [Re.matchK, Lang]
      constructor
      · intro h; simp at h
      · rintro ⟨u, v, h, ⟨c, rfl, _⟩, _⟩; simp at h
    | cons x s =>
      simp only [Re.matchK, Lang, Bool.and_eq_true, Cls.has_iff]
      constructor
      · rintro ⟨h1, h2⟩
        exact ⟨[x], s, rfl, ⟨x, rfl, h1⟩, h2⟩
      · rintro ⟨u, v, h, ⟨c, rfl, h1⟩, h2⟩
        simp at h
        obtain ⟨rfl, rfl⟩ := h
        exact ⟨h1, h2⟩
  | seq a b iha ihb =>
    intro s k
    simp only [Re.matchK, iha, ihb, Lang]
    constructor
    · rintro ⟨u, v, rfl, hu, u', v', rfl, hu', hk⟩
      exact ⟨u ++ u', v', by simp, ⟨u, u', rfl, hu, hu'⟩, hk⟩
    · rintro ⟨_, v, rfl, ⟨u, u', rfl, hu, hu'⟩, hk⟩
      exact ⟨u, u' ++ v, by simp, hu, u', v, rfl, hu', hk⟩
  | alt a b iha ihb =>
    intro s k
    simp only [Re.matchK, Bool.or_eq_true, iha, ihb, Lang]
    constructor
    · rintro (⟨u, v, h1, h2, h3⟩ | ⟨u, v, h1, h2, h3⟩)
      · exact ⟨u, v, h1, .inl h2, h3⟩
      · exact ⟨u, v, h1, .inr h2, h3⟩
    · rintro ⟨u, v, h1, h2 | h2, h3⟩
      · exact .inl ⟨u, v, h1, h2, h3⟩
      · exact .inr ⟨u, v, h1, h2, h3⟩
  | rep a lo hi iha =>
    intro s k
    simp only [Re.matchK, Lang, repK_spec iha]
    constructor
    · rintro ⟨l, h1, h2, h3, v, h4, h5⟩
      exact ⟨l.flatten, v, h4, ⟨l, h1, h2, h3, rfl⟩, h5⟩
    · rintro ⟨u, v, h4, ⟨l, h1, h2, h3, rfl⟩, h5⟩
      exact ⟨l, h1, h2, h3, v, h4, h5⟩

/-- The matcher decides membership in the language. -/
theorem fullmatch_iff (r : Re) (s : Str) : r.fullmatch s = true ↔ Lang r s := by
  simp only [Re.fullmatch, matchK_spec]
  constructor
  · rintro ⟨u, v, rfl, hu, hv⟩
    simp at hv
    simpa [hv] using hu
  · intro h; exact ⟨s, [], by simp, h, rfl⟩

/-! ### Class words -/

/-- A class word matches the strings of the same length whose characters lie in the classes. -/
def wm : List Cls → Str → Bool
  | [], [] => true
  | k :: w, c :: s => k.has c && wm w s
  | _, _ => false

/-- `n`-fold product of a set of words. -/
def powWords (ws : List (List Cls)) : Nat → List (List Cls)
  | 0 => [[]]
  | n + 1 => ws.flatMap fun w => (powWords ws n).map (w ++ ·)

/-- All class words of an expression. -/
def Re.expand : Re → List (List Cls)
  | .eps => [[]]
  | .cls k => [[k]]
  | .seq a b => a.expand.flatMap fun w => b.expand.map (w ++ ·)
  | .alt a b => a.expand ++ b.expand
  | .rep a lo hi => (List.range (hi + 1)).flatMap fun n => if lo ≤ n then powWords a.expand n else []

theorem wm_append (w1 w2 : List Cls) (s : Str) :
    wm (w1 ++ w2) s = true ↔ ∃ u v, s = u ++ v ∧ wm w1 u = true ∧ wm w2 v = true := by
  induction w1 generalizing s with
  | nil =>
    constructor
    · intro h; exact ⟨[], s, rfl, rfl, h⟩
    · rintro ⟨u, v, rfl, hu, hv⟩
      cases u with
      | nil => exact hv
      | cons c u => simp [wm] at hu
  | cons k w1 ih =>
    cases s with
    | nil =>
      simp only [List.cons_append, wm]
      constructor
      · intro h; simp at h
      · rintro ⟨u, v, h, hu, _⟩
        have : u = [] := by
          cases u with
          | nil => rfl
          | cons => simp at h
        subst this
        simp [wm] at hu
    | cons c s =>
      simp only [List.cons_append, wm, Bool.and_eq_true, ih]
      constructor
      · rintro ⟨h1, u, v, rfl, hu, hv⟩
        exact ⟨c :: u, v, rfl, by simp [wm, h1, hu], hv⟩
      · rintro ⟨u, v, h, hu, hv⟩
        cases u with
        | nil => simp [wm] at hu
        | cons d u =>
          simp only [List.cons_append, List.cons.injEq] at h
          obtain ⟨rfl, rfl⟩ := h
          simp only [wm, Bool.and_eq_true] at hu
          exact ⟨hu.1, u, v, rfl, hu.2, hv⟩

theorem powWords_spec {ws : List (List Cls)} {P : Str → Prop} (h : ∀ s, P s ↔ ∃ w ∈ ws, wm w s = true) :
    ∀ (n : Nat) (s : Str), (∃ w ∈ powWords ws n, wm w s = true) ↔
      ∃ l : List Str, l.length = n ∧ (∀ x ∈ l, P x) ∧ s = l.flatten := by
  intro n
  induction n with
  | zero =>
    intro s
    simp only [powWords, List.mem_singleton, exists_eq_left]
    constructor
    · intro hs
      cases s with
      | nil => exact ⟨[], rfl, by simp, rfl⟩
      | cons => simp [wm] at hs
    · rintro ⟨l, hl, _, rfl⟩
      obtain rfl : l = [] := by simpa using hl
      rfl
  | succ n ih =>
    intro s
    simp only [powWords, List.mem_flatMap, List.mem_map]
    constructor
    · rintro ⟨_, ⟨w, hw, w', hw', rfl⟩, hs⟩
      obtain ⟨u, v, rfl, hu, hv⟩ := (wm_append _ _ _).1 hs
      obtain ⟨l, hl, hP, rfl⟩ := (ih v).1 ⟨w', hw', hv⟩
      refine ⟨u :: l, by simp [hl], ?_, by simp⟩
      intro x hx
      rcases List.mem_cons.1 hx with rfl | hx
      · exact (h x).2 ⟨w, hw, hu⟩
      · exact hP x hx
    · rintro ⟨l, hl, hP, rfl⟩
      cases l with
      | nil => simp at hl
      | cons u l =>
        obtain ⟨w, hw, hu⟩ := (h u).1 (hP u (by simp))
        obtain ⟨w', hw', hv⟩ := (ih l.flatten).2 ⟨l, by simpa using hl, fun x hx => hP x (by simp [hx]), rfl⟩
        exact ⟨w ++ w', ⟨w, hw, w', hw', rfl⟩, (wm_append _ _ _).2 ⟨u, l.flatten, by simp, hu, hv⟩⟩

theorem expand_spec : ∀ (r : Re) (s : Str), Lang r s ↔ ∃ w ∈ r.expand, wm w s = true := by
  intro r
  induction r with
  | eps =>
    intro s
    simp only [Lang, Re.expand, List.mem_singleton, exists_eq_left]
    cases s <;> simp [wm]
  | cls k =>
    intro s
    simp only [Lang, Re.expand, List.mem_singleton, exists_eq_left]
    rcases s with _ | ⟨c, _ | ⟨d, s⟩⟩
    · simp [wm]
    · simp [wm, Cls.has_iff]
    · simp [wm]
  | seq a b iha ihb =>
    intro s
    simp only [Lang, Re.expand, List.mem_flatMap, List.mem_map]
    constructor
    · rintro ⟨u, v, rfl, hu, hv⟩
      obtain ⟨w, hw, hwu⟩ := (iha u).1 hu
      obtain ⟨w', hw', hwv⟩ := (ihb v).1 hv
      exact ⟨w ++ w', ⟨w, hw, w', hw', rfl⟩, (wm_append _ _ _).2 ⟨u, v, rfl, hwu, hwv⟩⟩
    · rintro ⟨_, ⟨w, hw, w', hw', rfl⟩, hs⟩
      obtain ⟨u, v, rfl, hu, hv⟩ := (wm_append _ _ _).1 hs
      exact ⟨u, v, rfl, (iha u).2 ⟨w, hw, hu⟩, (ihb v).2 ⟨w', hw', hv⟩⟩
  | alt a b iha ihb =>
    intro s
    simp only [Lang, Re.expand, List.mem_append, iha, ihb]
    constructor
    · rintro (⟨w, hw, h⟩ | ⟨w, hw, h⟩)
      · exact ⟨w, .inl hw, h⟩
      · exact ⟨w, .inr hw, h⟩
    · rintro ⟨w, hw | hw, h⟩
      · exact .inl ⟨w, hw, h⟩
      · exact .inr ⟨w, hw, h⟩
  | rep a lo hi iha =>
    intro s
    simp only [Lang, Re.expand, List.mem_flatMap, List.mem_range]
    constructor
    · rintro ⟨l, h1, h2, h3, rfl⟩
      obtain ⟨w, hw, hs⟩ := (powWords_spec iha l.length l.flatten).2 ⟨l, rfl, h3, rfl⟩
      exact ⟨w, ⟨l.length, by omega, by simpa [h1] using hw⟩, hs⟩
    · rintro ⟨w, ⟨n, hn, hw⟩, hs⟩
      split at hw
      · rename_i hlo
        obtain ⟨l, hl, hP, rfl⟩ := (powWords_spec iha n s).1 ⟨w, hw, hs⟩
        exact ⟨l, by omega, by omega, hP, rfl⟩
      · simp at hw

/-! ### Facts about class words -/

theorem wm_length {w : List Cls} {s : Str} (h : wm w s = true) : s.length = w.length := by
  induction w generalizing s with
  | nil => cases s <;> simp [wm] at h ⊢
  | cons k w ih =>
    cases s with
    | nil => simp [wm] at h
    | cons c s => simp only [wm, Bool.and_eq_true] at h; simp [ih h.2]

theorem wm_take {w : List Cls} {s : Str} (h : wm w s = true) (n : Nat) :
    wm (w.take n) (s.take n) = true := by
  induction w generalizing s n with
  | nil => cases s <;> simp [wm] at h ⊢
  | cons k w ih =>
    cases s with
    | nil => simp [wm] at h
    | cons c s =>
      simp only [wm, Bool.and_eq_true] at h
      cases n with
      | zero => rfl
      | succ n => simp [wm, h.1, ih h.2 n]

theorem wm_drop {w : List Cls} {s : Str} (h : wm w s = true) (n : Nat) :
    wm (w.drop n) (s.drop n) = true := by
  induction w generalizing s n with
  | nil => cases s <;> simp [wm] at h ⊢
  | cons k w ih =>
    cases s with
    | nil => simp [wm] at h
    | cons c s =>
      cases n with
      | zero => exact h
      | succ n =>
        simp only [wm, Bool.and_eq_true] at h
        exact ih h.2 n

theorem wm_slice {w : List Cls} {s : Str} (h : wm w s = true) (i j : Int) :
    wm (slice w i j) (slice s i j) = true := by
  unfold slice
  rw [wm_length h]
  exact wm_drop (wm_take h _) _

theorem wm_sliceFrom {w : List Cls} {s : Str} (h : wm w s = true) (i : Int) :
    wm (sliceFrom w i) (sliceFrom s i) = true := by
  unfold sliceFrom
  rw [wm_length h]
  exact wm_drop h _

theorem wm_mem {w : List Cls} {s : Str} (h : wm w s = true) {c : Char} (hc : c ∈ s) :
    ∃ k ∈ w, k.has c = true := by
  induction w generalizing s with
  | nil => cases s <;> simp [wm] at h hc
  | cons k w ih =>
    cases s with
    | nil => simp at hc
    | cons d s =>
      simp only [wm, Bool.and_eq_true] at h
      rcases List.mem_cons.1 hc with rfl | hc
      · exact ⟨k, by simp, h.1⟩
      · obtain ⟨k', hk', h'⟩ := ih h.2 hc
        exact ⟨k', by simp [hk'], h'⟩

/-- Two classes without common character (sufficient test). -/
def Cls.disj (a b : Cls) : Bool := a.all fun p => b.all fun q => decide (p.2 < q.1) || decide (q.2 < p.1)

theorem Cls.disj_sound {a b : Cls} (h : a.disj b = true) (c : Char) : ¬ (a.has c = true ∧ b.has c = true) := by
  rintro ⟨ha, hb⟩
  simp only [Cls.has_iff] at ha hb
  obtain ⟨l, u, hm, h1, h2⟩ := ha
  obtain ⟨l', u', hm', h1', h2'⟩ := hb
  simp only [Cls.disj, List.all_eq_true, Bool.or_eq_true, decide_eq_true_eq] at h
  have := h _ hm _ hm'
  simp only [Char.lt_def, Char.le_def] at *
  simp only [UInt32.lt_iff_toNat_lt, UInt32.le_iff_toNat_le] at *
  omega

/-- Class inclusion (sufficient test). -/
def Cls.sub (a b : Cls) : Bool := a.all fun p => b.any fun q => decide (q.1 ≤ p.1) && decide (p.2 ≤ q.2)

theorem Cls.sub_sound {a b : Cls} (h : a.sub b = true) {c : Char} (hc : a.has c = true) : b.has c = true := by
  simp only [Cls.has_iff] at hc ⊢
  obtain ⟨l, u, hm, h1, h2⟩ := hc
  simp only [Cls.sub, List.all_eq_true, List.any_eq_true, Bool.and_eq_true, decide_eq_true_eq] at h
  obtain ⟨⟨l', u'⟩, hm', h3, h4⟩ := h _ hm
  refine ⟨l', u', hm', ?_, ?_⟩
  · simp only [Char.le_def, UInt32.le_iff_toNat_le] at *; omega
  · simp only [Char.le_def, UInt32.le_iff_toNat_le] at *; omega

/-- Two class words without common string (sufficient test). -/
def disjW : List Cls → List Cls → Bool
  | [], [] => false
  | a :: w, b :: v => a.disj b || disjW w v
  | _, _ => true

theorem disjW_sound {w v : List Cls} (h : disjW w v = true) (s : Str) : ¬ (wm w s = true ∧ wm v s = true) := by
  induction w generalizing v s with
  | nil =>
    cases v with
    | nil => simp [disjW] at h
    | cons b v => rintro ⟨h1, h2⟩; cases s <;> simp [wm] at h1 h2
  | cons a w ih =>
    cases v with
    | nil => rintro ⟨h1, h2⟩; cases s <;> simp [wm] at h1 h2
    | cons b v =>
      rintro ⟨h1, h2⟩
      cases s with
      | nil => simp [wm] at h1
      | cons c s =>
        simp only [wm, Bool.and_eq_true] at h1 h2
        simp only [disjW, Bool.or_eq_true] at h
        rcases h with h | h
        · exact Cls.disj_sound h c ⟨h1.1, h2.1⟩
        · exact ih h s ⟨h1.2, h2.2⟩

/-- Inclusion of class words (sufficient test). -/
def subW : List Cls → List Cls → Bool
  | [], [] => true
  | a :: w, b :: v => a.sub b && subW w v
  | _, _ => false

theorem subW_sound {w v : List Cls} (h : subW w v = true) {s : Str} (hs : wm w s = true) : wm v s = true := by
  induction w generalizing v s with
  | nil =>
    cases v with
    | nil => exact hs
    | cons b v => simp [subW] at h
  | cons a w ih =>
    cases v with
    | nil => simp [subW] at h
    | cons b v =>
      cases s with
      | nil => simp [wm] at hs
      | cons c s =>
        simp only [wm, Bool.and_eq_true] at hs ⊢
        simp only [subW, Bool.and_eq_true] at h
        exact ⟨Cls.sub_sound h.1 hs.1, ih h.2 hs.2⟩

end F15
