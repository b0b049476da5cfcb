import Verif.Lemmas.Back
import Verif.Lemmas.NumVal
/-!
# The numeric conditions of the grammar
-/

namespace F15
open Spec

/-! ### Splitting -/

theorem speed_split {s a b : Str} (h : s = a ++ b) (ha : Speed a) : spOf s = a ∧ restOf s = b := by
  subst h
  unfold spOf restOf
  rcases ha with ⟨u, d, hu, rfl, hl, _⟩ | ⟨u, d, hu, rfl, hl, _⟩
  · simp only [List.mem_singleton] at hu; subst hu
    have h1 : (('M' :: d) ++ b).take 1 = ['M'] := rfl
    rw [if_pos h1, if_pos h1]
    have : ('M' :: d).length = 4 := by simp [hl]
    exact ⟨by rw [← this]; exact List.take_left, by rw [← this]; exact List.drop_left⟩
  · have h1 : ((u :: d) ++ b).take 1 ≠ ['M'] := by
      simp only [List.mem_cons, List.not_mem_nil, or_false] at hu
      rcases hu with rfl | rfl <;> simp
    rw [if_neg h1, if_neg h1]
    have : (u :: d).length = 5 := by simp [hl]
    exact ⟨by rw [← this]; exact List.take_left, by rw [← this]; exact List.drop_left⟩

theorem level_FA {b c : Str} (hb : Level b) : lvLen (b ++ c) = b.length ∧ (isFA (b ++ c) = true ↔ UnitDigits ['F', 'A'] 3 b) := by
  unfold lvLen isFA
  rcases hb with ⟨u, d, hu, rfl, hl, hd⟩ | ⟨u, d, hu, rfl, hl, hd⟩
  · have : ((((u :: d) ++ c).take 1 = ['F']) || (((u :: d) ++ c).take 1 = ['A'])) = true := by
      simp only [List.mem_cons, List.not_mem_nil, or_false] at hu
      rcases hu with rfl | rfl <;> simp
    rw [if_pos this]
    exact ⟨by simp [hl], fun _ => ⟨u, d, hu, rfl, hl, hd⟩, fun _ => this⟩
  · have : ((((u :: d) ++ c).take 1 = ['F']) || (((u :: d) ++ c).take 1 = ['A'])) = false := by
      simp only [List.mem_cons, List.not_mem_nil, or_false] at hu
      rcases hu with rfl | rfl <;> simp
    rw [this]
    refine ⟨by simp [hl], fun h => by simp at h, ?_⟩
    rintro ⟨u', d', hu', h, _⟩
    simp only [List.cons.injEq] at h
    obtain ⟨rfl, _⟩ := h
    simp only [List.mem_cons, List.not_mem_nil, or_false] at hu hu'
    rcases hu with rfl | rfl <;> simp at hu'

theorem level_split {s a b c : Str} (h : s = a ++ b ++ c) (ha : Speed a) (hb : Level b) :
    lv1Of s = b ∧ tailOf s = c ∧ (ccExact s = true ↔ UnitDigits ['K', 'N'] 4 a ∧ UnitDigits ['F', 'A'] 3 b) := by
  rw [List.append_assoc] at h
  obtain ⟨h1, h2⟩ := speed_split h ha
  obtain ⟨h3, h4⟩ := level_FA (c := c) hb
  unfold lv1Of tailOf ccExact
  rw [h2, h3]
  refine ⟨List.take_left, List.drop_left, ?_⟩
  rw [Bool.and_eq_true, h4]
  apply and_congr_left'
  subst h
  rcases ha with ⟨u, d, hu, rfl, hl, hd⟩ | ⟨u, d, hu, rfl, hl, hd⟩
  · simp only [List.mem_singleton] at hu; subst hu
    refine ⟨fun h => by simp at h, ?_⟩
    rintro ⟨u', d', hu', h, _⟩
    simp only [List.cons.injEq] at h
    obtain ⟨rfl, _⟩ := h
    simp at hu'
  · refine ⟨fun _ => ⟨u, d, hu, rfl, hl, hd⟩, fun _ => ?_⟩
    simp only [List.mem_cons, List.not_mem_nil, or_false] at hu
    rcases hu with rfl | rfl <;> simp

/-! ### Levels -/

theorem gran_iff {lv : Str} : granErr lv = [] ↔ FiveStep lv := by
  unfold granErr FiveStep qty
  constructor
  · rintro h d rfl
    rw [if_neg_iff] at h
    exact Decidable.byContradiction fun hc => h ⟨rfl, hc⟩
  · intro h
    rw [if_neg]
    rintro ⟨h1, h2⟩
    match lv, h1 with
    | c :: d, h1 =>
      simp at h1; subst h1
      exact h2 (h d rfl)
where
  if_neg_iff {p : Prop} [Decidable p] : ((if p then [40] else [] : List Nat) = []) = ¬ p := by
    by_cases h : p <;> simp [h]

theorem levelOk_iff {t : Token} (ht : Typed t) (hb : t.base = .SPEED_ALTITUDE) : LevelOk t.text ↔ (Act.level t).nums = [] := by
  show _ ↔ granErr _ = []
  rw [gran_iff]
  obtain ⟨h1, h2, h3⟩ := level_facts ht hb
  constructor
  · intro h; exact h _ _ h3 h1 h2
  · rintro h a b hs ha hb
    rw [← (speed_split hs ha).2]; exact h

theorem plusOk_iff {t : Token} (ht : Typed t) (hb : t.base = .SPEED_ALTITUDE_PLUS) : PlusOk t.text ↔ (Act.plus t).nums = [] := by
  show _ ↔ granErr _ = []
  rw [gran_iff]
  obtain ⟨h1, h2, h4, h3⟩ := plus_facts ht hb
  constructor
  · intro h; exact h _ _ (by rw [List.append_assoc, ← h4]; exact h3) h1 h2
  · rintro h a b hs ha hb
    rw [← (level_split hs ha hb).1]; exact h

theorem digits_gran {d : Str} (h : ∀ c ∈ d, Digit c) : granErr d = [] := by
  rw [gran_iff]
  rintro x rfl
  have := h 'F' (by simp)
  exact absurd this.2 (by decide)

theorem climbOk_iff {t : Token} (ht : Typed t) (hb : t.base = .SPEED_ALTITUDE_ALTITUDE) (hn : t.sub ∉ ccBad) :
    ClimbOk t.text ↔ (Act.levels t).nums = [] := by
  show _ ↔ granErr _ ++ granErr _ = []
  rw [List.append_eq_nil_iff, gran_iff]
  obtain ⟨h1, h2, h4, _, h3⟩ := levels_facts ht hb hn
  have h3' : t.text = spOf t.text ++ lv1Of t.text ++ tailOf t.text := by rw [List.append_assoc]; exact h3
  have hx := (level_split h3' h1 h2).2.2
  have hdrop : ccExact t.text = false → granErr (lv2Of t.text) = [] := by
    intro hc
    unfold lv2Of
    rw [hc]
    apply digits_gran
    rcases h4 with ⟨u, d, _, h, _, hd⟩ | ⟨u, d, _, h, _, hd⟩ <;> rw [h] <;> exact hd
  constructor
  · intro h
    obtain ⟨g1, g2⟩ := h _ _ _ h3' h1 h2 h4
    refine ⟨g1, ?_⟩
    cases hc : ccExact t.text with
    | false => exact hdrop hc
    | true =>
      unfold lv2Of
      rw [hc, if_pos rfl, gran_iff]
      exact g2 (hx.1 hc).1 (hx.1 hc).2
  · rintro ⟨g1, g2⟩ a b c hs ha hb hc
    obtain ⟨k1, k2, k3⟩ := level_split hs ha hb
    rw [k1] at g1
    refine ⟨g1, fun u1 u2 => ?_⟩
    have := k3.2 ⟨u1, u2⟩
    unfold lv2Of at g2
    rw [this, if_pos rfl, k2, gran_iff] at g2
    exact g2

theorem climb_iff {t : Token} (ht : Typed t) : ClimbLevels t ↔ ∃ a, ClimbAct t a := by
  have hbad : t.sub ∉ ccBad ↔ (t.sub ≠ .SPEED_ALTITUDE_NAS ∧ t.sub ≠ .SPEED_ALTITUDE_NAM) := by simp [ccBad]
  unfold ClimbLevels ClimbAct
  constructor
  · rintro (⟨h1, h2, h3, h4⟩ | ⟨h1, h2⟩)
    · exact ⟨_, .inl ⟨h1, hbad.2 ⟨h2, h3⟩, rfl, fun _ => (climbOk_iff ht h1 (hbad.2 ⟨h2, h3⟩)).1 h4⟩⟩
    · exact ⟨_, .inr ⟨h1, rfl, fun _ => (plusOk_iff ht h1).1 h2⟩⟩
  · rintro ⟨a, ⟨h1, h2, rfl, h4⟩ | ⟨h1, rfl, h2⟩⟩
    · exact .inl ⟨h1, (hbad.1 h2).1, (hbad.1 h2).2, (climbOk_iff ht h1 h2).2 (h4 trivial)⟩
    · exact .inr ⟨h1, (plusOk_iff ht h1).2 (h2 trivial)⟩

/-! ### Positions -/

theorem deg_iff (a b h c d e k : Char) (x : Str) :
    degErr ([a, b, h, c, d, e, k] ++ x) = [] ↔ DegInRange [a, b, h, c, d, e, k] := by
  have s02 : slice ([a, b, h, c, d, e, k] ++ x) 0 2 = [a, b] := slice_nat _ 0 2
  have s36 : slice ([a, b, h, c, d, e, k] ++ x) 3 6 = [c, d, e] := slice_nat _ 3 6
  unfold degErr DegInRange
  rw [s02, s36, numVal2, numVal3, List.append_eq_nil_iff]
  constructor
  · rintro ⟨h1, h2⟩ a' b' h' c' d' e' k' heq
    simp only [List.cons.injEq, and_true] at heq
    obtain ⟨rfl, rfl, rfl, rfl, rfl, rfl, rfl⟩ := heq
    constructor
    · by_cases hc : num2 a b > 90
      · rw [if_pos hc] at h1; cases h1
      · omega
    · by_cases hc : num3 c d e > 180
      · rw [if_pos hc] at h2; cases h2
      · omega
  · intro h
    obtain ⟨h1, h2⟩ := h a b _ c d e k rfl
    rw [if_neg (by omega), if_neg (by omega)]
    exact ⟨rfl, rfl⟩

theorem min_iff (a b c d h e f g i j k : Char) (x : Str) :
    minErr ([a, b, c, d, h, e, f, g, i, j, k] ++ x) = [] ↔ MinInRange [a, b, c, d, h, e, f, g, i, j, k] := by
  have s02 : slice ([a, b, c, d, h, e, f, g, i, j, k] ++ x) 0 2 = [a, b] := slice_nat _ 0 2
  have s24 : slice ([a, b, c, d, h, e, f, g, i, j, k] ++ x) 2 4 = [c, d] := slice_nat _ 2 4
  have s58 : slice ([a, b, c, d, h, e, f, g, i, j, k] ++ x) 5 8 = [e, f, g] := slice_nat _ 5 8
  have s80 : slice ([a, b, c, d, h, e, f, g, i, j, k] ++ x) 8 10 = [i, j] := slice_nat _ 8 10
  unfold minErr MinInRange
  rw [s02, s24, s58, s80, numVal2, numVal3, numVal2, numVal2, List.append_eq_nil_iff]
  have key : ∀ (n max p q : Nat), (if degMinOk max p q then [] else [n]) = [] ↔ (q ≤ 59 ∧ 60 * p + q ≤ 60 * max) := by
    intro n max p q
    cases hd : degMinOk max p q with
    | true =>
      simp only [degMinOk, Bool.and_eq_true, decide_eq_true_eq] at hd
      simp; omega
    | false =>
      have : ¬ (q ≤ 59 ∧ p * 60 + q ≤ max * 60) := by
        intro h; simp only [degMinOk, decide_eq_true h.1, decide_eq_true h.2] at hd; cases hd
      simp; omega
  rw [key, key]
  constructor
  · rintro h a' b' c' d' h' e' f' g' i' j' k' heq
    simp only [List.cons.injEq, and_true] at heq
    obtain ⟨rfl, rfl, rfl, rfl, rfl, rfl, rfl, rfl, rfl, rfl, rfl⟩ := heq
    exact h
  · intro h; exact h a b c d _ e f g i j k rfl

theorem brg_iff (u v : Str) (hv : Digits 6 v) : brgErr (u ++ v) = [] ↔ BearingInRange (u ++ v) := by
  obtain ⟨a, b, c, d, e, f, rfl⟩ := len6 hv.1
  have s : slice (u ++ [a, b, c, d, e, f]) (-6) (-3) = [a, b, c] := slice_neg_right u _ 6 3 rfl (by decide) (by decide)
  unfold brgErr BearingInRange
  rw [s, numVal3]
  constructor
  · intro h u' a' b' c' d' e' f' heq
    have hq := (List.append_inj' heq rfl).2
    simp only [List.cons.injEq, and_true] at hq
    obtain ⟨rfl, rfl, rfl, rfl, rfl, rfl⟩ := hq
    by_cases hc : num3 a b c > 360
    · rw [if_pos hc] at h; cases h
    · omega
  · intro h
    have := h u a b c d e f rfl
    rw [if_neg (by omega)]

theorem pos_iff {t : Token} (ht : Typed t) : PositionOk t ↔ posNums t = [] := by
  have hsub := c10_point_subtypes t.text
  unfold PositionOk posNums
  split
  · rename_i h
    obtain ⟨n, a, b, hs, _, _, _, hb⟩ := hsub.2.2.2.2.1 (by rw [typed_sub ht (by rw [h]; decide), h])
    simp only [h, hs]; exact (brg_iff a b hb).symm
  · rename_i h
    obtain ⟨a, b, x, c, d, e, k, hs, _⟩ := latLon23 (hsub.1.1 (by rw [typed_sub ht (by rw [h]; decide), h]))
    simp only [h, hs]; rw [← deg_iff a b x c d e k [], List.append_nil]
  · rename_i h
    obtain ⟨a, b, c, d, x, e, f, g, i, j, k, hs, _⟩ := latLon45 (hsub.2.1.1 (by rw [typed_sub ht (by rw [h]; decide), h]))
    simp only [h, hs]; rw [← min_iff a b c d x e f g i j k [], List.append_nil]
  · rename_i h
    obtain ⟨u, v, hs, hu, hv⟩ := hsub.2.2.1.1 (by rw [typed_sub ht (by rw [h]; decide), h])
    obtain ⟨a, b, x, c, d, e, k, rfl, _⟩ := latLon23 hu
    simp only [h, hs]; rw [List.append_eq_nil_iff, deg_iff, brg_iff _ v hv]
    refine and_congr_left fun _ => ⟨fun h => h _ _ rfl hv.1, fun h u' v' heq hl => ?_⟩
    obtain ⟨rfl, _⟩ := List.append_inj' heq (by rw [hv.1, hl])
    exact h
  · rename_i h
    obtain ⟨u, v, hs, hu, hv⟩ := hsub.2.2.2.1.1 (by rw [typed_sub ht (by rw [h]; decide), h])
    obtain ⟨a, b, c, d, x, e, f, g, i, j, k, rfl, _⟩ := latLon45 hu
    simp only [h, hs]; rw [List.append_eq_nil_iff, min_iff, brg_iff _ v hv]
    refine and_congr_left fun _ => ⟨fun h => h _ _ rfl hv.1, fun h u' v' heq hl => ?_⟩
    obtain ⟨rfl, _⟩ := List.append_inj' heq (by rw [hv.1, hl])
    exact h
  · rename_i h1 h2 h3 h4 h5
    cases h : t.sub <;> simp_all

/-! ### The grammar and its annotated form -/

theorem run_accepts {q : Phase} {ts : List Token} {as : List Act} (h : Run q ts as) (hT : ∀ t ∈ ts, Typed t) : Accepts q ts := by
  induction h with
  | stop => exact .stop _
  | truncate hq hb => exact .truncate hq hb
  | star hq hb => exact .star hq hb
  | sid hb _ ih => exact .sid hb (ih fun x hx => hT x (by simp [hx]))
  | dct hq hb _ ih => exact .dct hq hb (ih fun x hx => hT x (by simp [hx]))
  | route hq hb _ ih => exact .route hq hb (ih fun x hx => hT x (by simp [hx]))
  | point hq hb hn _ ih => exact .point hq hb ((pos_iff (hT _ (by simp))).2 (hn trivial)) (ih fun x hx => hT x (by simp [hx]))
  | climb hq hb _ ih => exact .climb hq hb (ih fun x hx => hT x (by simp [hx]))
  | cruise hq hb hs hp hs' hl _ ih =>
    exact .cruise hq hb hs ((pos_iff (hT _ (by simp))).2 (hp trivial)) hs' ((climb_iff (hT _ (by simp))).2 ⟨_, hl⟩)
      (ih fun x hx => hT x (by simp [hx]))
  | stay hq hb hs hm _ ih => exact .stay hq hb hs hm (ih fun x hx => hT x (by simp [hx]))
  | break_ hq hb _ ih => exact .break_ hq hb (ih fun x hx => hT x (by simp [hx]))
  | level hs hb hl _ ih => exact .level hs hb ((levelOk_iff (hT _ (by simp)) hb).2 (hl trivial)) (ih fun x hx => hT x (by simp [hx]))
  | vfr hs hb _ ih => exact .vfr hs hb (ih fun x hx => hT x (by simp [hx]))
  | word hb hc _ ih => exact .word hb hc (ih fun x hx => hT x (by simp [hx]))
  | resume hc hi hb hp hn _ ih =>
    exact .resume hc hi hb hp ((pos_iff (hT _ (by simp))).2 (hn trivial)) (ih fun x hx => hT x (by simp [hx]))
  | resumeIfr hc hi hb hp hn hs hl hk _ ih =>
    exact .resumeIfr hc hi hb hp ((pos_iff (hT _ (by simp))).2 (hn trivial)) hs hl ((levelOk_iff (hT _ (by simp)) hl).2 (hk trivial))
      (ih fun x hx => hT x (by simp [hx]))
  | resumeVfr hc hi hb hp hs hl _ ih => exact .resumeVfr hc hi hb hp hs hl (ih fun x hx => hT x (by simp [hx]))

theorem accepts_run {q : Phase} {ts : List Token} (h : Accepts q ts) (hT : ∀ t ∈ ts, Typed t) : ∃ as, Run q ts as := by
  induction h with
  | stop => exact ⟨_, .stop _⟩
  | truncate hq hb => exact ⟨_, .truncate hq hb⟩
  | star hq hb => exact ⟨_, .star hq hb⟩
  | sid hb _ ih => obtain ⟨as, h⟩ := ih fun x hx => hT x (by simp [hx]); exact ⟨_, .sid hb h⟩
  | dct hq hb _ ih => obtain ⟨as, h⟩ := ih fun x hx => hT x (by simp [hx]); exact ⟨_, .dct hq hb h⟩
  | route hq hb _ ih => obtain ⟨as, h⟩ := ih fun x hx => hT x (by simp [hx]); exact ⟨_, .route hq hb h⟩
  | point hq hb hn _ ih =>
    obtain ⟨as, h⟩ := ih fun x hx => hT x (by simp [hx])
    exact ⟨_, .point hq hb (fun _ => (pos_iff (hT _ (by simp))).1 hn) h⟩
  | climb hq hb _ ih => obtain ⟨as, h⟩ := ih fun x hx => hT x (by simp [hx]); exact ⟨_, .climb hq hb h⟩
  | cruise hq hb hs hp hs' hl _ ih =>
    obtain ⟨as, h⟩ := ih fun x hx => hT x (by simp [hx])
    obtain ⟨a, hl⟩ := (climb_iff (hT _ (by simp))).1 hl
    exact ⟨_, .cruise hq hb hs (fun _ => (pos_iff (hT _ (by simp))).1 hp) hs' hl h⟩
  | stay hq hb hs hm _ ih => obtain ⟨as, h⟩ := ih fun x hx => hT x (by simp [hx]); exact ⟨_, .stay hq hb hs hm h⟩
  | break_ hq hb _ ih => obtain ⟨as, h⟩ := ih fun x hx => hT x (by simp [hx]); exact ⟨_, .break_ hq hb h⟩
  | level hs hb hl _ ih =>
    obtain ⟨as, h⟩ := ih fun x hx => hT x (by simp [hx])
    exact ⟨_, .level hs hb (fun _ => (levelOk_iff (hT _ (by simp)) hb).1 hl) h⟩
  | vfr hs hb _ ih => obtain ⟨as, h⟩ := ih fun x hx => hT x (by simp [hx]); exact ⟨_, .vfr hs hb h⟩
  | word hb hc _ ih => obtain ⟨as, h⟩ := ih fun x hx => hT x (by simp [hx]); exact ⟨_, .word hb hc h⟩
  | resume hc hi hb hp hn _ ih =>
    obtain ⟨as, h⟩ := ih fun x hx => hT x (by simp [hx])
    exact ⟨_, .resume hc hi hb hp (fun _ => (pos_iff (hT _ (by simp))).1 hn) h⟩
  | resumeIfr hc hi hb hp hn hs hl hk _ ih =>
    obtain ⟨as, h⟩ := ih fun x hx => hT x (by simp [hx])
    exact ⟨_, .resumeIfr hc hi hb hp (fun _ => (pos_iff (hT _ (by simp))).1 hn) hs hl (fun _ => (levelOk_iff (hT _ (by simp)) hl).1 hk) h⟩
  | resumeVfr hc hi hb hp hs hl _ ih =>
    obtain ⟨as, h⟩ := ih fun x hx => hT x (by simp [hx]); exact ⟨_, .resumeVfr hc hi hb hp hs hl h⟩

end F15
