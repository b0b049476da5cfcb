import Verif.Lemmas.Equations2
/-!
# The tokens that raise `ValueError`
-/

namespace F15
open Spec

set_option linter.unusedSectionVars false
variable {F : Type} [PyFloat F]
variable (call : Call → ML F Unit)

/-- `N` + 4 digits, `A` + 4 digits, `S` or `M` + 4 digits. -/
def BadText (s : Str) : Prop := ∃ a b c d, Digits 4 a ∧ Digits 4 b ∧ (c = 'S' ∨ c = 'M') ∧ Digits 4 d ∧
  s = 'N' :: a ++ ('A' :: b ++ (c :: d))

theorem wm_cons_digit {w : List Cls} {s : Str} (h : wm (kD :: w) s = true) : ∃ c t, s = c :: t ∧ Digit c ∧ wm w t = true := by
  obtain ⟨c, t, h1, h2, h3⟩ := (wm_cons _ _ _).1 h
  exact ⟨c, t, h1, (has_kD c).1 h2, h3⟩

theorem wm_cons_char {w : List Cls} {s : Str} {d : Char} (h : wm (kC d :: w) s = true) : ∃ t, s = d :: t ∧ wm w t = true := by
  obtain ⟨c, t, h1, h2, h3⟩ := (wm_cons _ _ _).1 h
  rw [(has_kC d c).1 h2] at h1
  exact ⟨t, h1, h3⟩

/-- The word of the two malformed rows. -/
def badW (c : Char) : List Cls := kC 'N' :: kD :: kD :: kD :: kD :: kC 'A' :: kD :: kD :: kD :: kD :: kC c :: kD :: kD :: kD :: kD :: []

theorem badW_text {c : Char} {s : Str} (h : wm (badW c) s = true) : ∃ a b d, Digits 4 a ∧ Digits 4 b ∧ Digits 4 d ∧
    s = 'N' :: a ++ ('A' :: b ++ (c :: d)) := by
  obtain ⟨s1, rfl, h1⟩ := wm_cons_char h
  obtain ⟨a1, s2, rfl, ha1, h2⟩ := wm_cons_digit h1
  obtain ⟨a2, s2, rfl, ha2, h3⟩ := wm_cons_digit h2
  obtain ⟨a3, s2, rfl, ha3, h4⟩ := wm_cons_digit h3
  obtain ⟨a4, s2, rfl, ha4, h5⟩ := wm_cons_digit h4
  obtain ⟨s1, rfl, h6⟩ := wm_cons_char h5
  obtain ⟨b1, s2, rfl, hb1, h7⟩ := wm_cons_digit h6
  obtain ⟨b2, s2, rfl, hb2, h8⟩ := wm_cons_digit h7
  obtain ⟨b3, s2, rfl, hb3, h9⟩ := wm_cons_digit h8
  obtain ⟨b4, s2, rfl, hb4, h10⟩ := wm_cons_digit h9
  obtain ⟨s1, rfl, h11⟩ := wm_cons_char h10
  obtain ⟨d1, s2, rfl, hd1, h12⟩ := wm_cons_digit h11
  obtain ⟨d2, s2, rfl, hd2, h13⟩ := wm_cons_digit h12
  obtain ⟨d3, s2, rfl, hd3, h14⟩ := wm_cons_digit h13
  obtain ⟨d4, s2, rfl, hd4, h15⟩ := wm_cons_digit h14
  have : s2 = [] := by cases s2 with
    | nil => rfl
    | cons => simp [wm] at h15
  subst this
  refine ⟨[a1, a2, a3, a4], [b1, b2, b3, b4], [d1, d2, d3, d4], ⟨rfl, ?_⟩, ⟨rfl, ?_⟩, ⟨rfl, ?_⟩, rfl⟩
  all_goals
    intro x hx
    simp only [List.mem_cons, List.not_mem_nil, or_false] at hx
    rcases hx with rfl | rfl | rfl | rfl <;> assumption

theorem badText_of {t : Token} (ht : Typed t) (hs : t.sub ∈ ccBad) : BadText t.text := by
  obtain ⟨w, hc, hw⟩ := typed_word ht (fun _ u => ccBad.contains u) (fun w => decide (w = badW 'S' ∨ w = badW 'M'))
    (by decide +kernel) (by simpa using hs) (by decide) (by decide)
  simp only [decide_eq_true_eq] at hc
  rcases hc with rfl | rfl
  · obtain ⟨a, b, d, h1, h2, h3, h4⟩ := badW_text hw
    exact ⟨a, b, 'S', d, h1, h2, .inl rfl, h3, h4⟩
  · obtain ⟨a, b, d, h1, h2, h3, h4⟩ := badW_text hw
    exact ⟨a, b, 'M', d, h1, h2, .inr rfl, h3, h4⟩

theorem pyInt_bad {c : Char} {d : Str} (hc : c = 'S' ∨ c = 'M') (hd : Digits 4 d) :
    pyInt (c :: d) = .error .valueError := by
  have hsp : isSpace c = false := by rcases hc with rfl | rfl <;> decide
  have h1 : (c :: d).dropWhile isSpace = c :: d := by rw [List.dropWhile_cons, hsp]; simp
  have h2 : (c :: d).reverse.dropWhile isSpace = (c :: d).reverse := dropWhile_eq_self fun x hx => by
    have : x = c ∨ x ∈ d := by simpa [or_comm] using hx
    rcases this with rfl | h
    · exact hsp
    · exact digit_not_space (hd.2 x h)
  unfold pyInt strip
  rw [h1, h2, List.reverse_reverse]
  rcases hc with rfl | rfl <;> rfl

theorem step_levels_bad (t : Token) (ht : Typed t) (hbad : t.sub ∈ ccBad)
    (e : Ers F) (ts : List Token) (he : e.recs ≠ []) :
    step call (.assignSpeedAltitudeAltitude t) ⟨e, ts⟩ = .error .valueError := by
  obtain ⟨a, b, c, d, ha, hb, hc, hd, htx⟩ := badText_of ht hbad
  obtain ⟨a1, a2, a3, a4, rfl⟩ := len4 ha.1
  obtain ⟨b1, b2, b3, b4, rfl⟩ := len4 hb.1
  have e1 : slice t.text 5 9 = ['A', b1, b2, b3] := by rw [htx]; exact slice_nat _ 5 9
  have e2 : sliceFrom t.text 9 = b4 :: c :: d := by rw [htx]; exact sliceFrom_nat _ 9
  have h1 := does_assignAltitude (F := F) t ['A', b1, b2, b3] ⟨'A', [b1, b2, b3], rfl, by simp, by
    intro x hx
    exact hb.2 x (by simp only [List.mem_cons, List.not_mem_nil, or_false] at hx ⊢; rcases hx with h | h | h <;> simp [h])⟩
  have e3 : sliceFrom (b4 :: c :: d) 1 = c :: d := sliceFrom_nat (b4 :: c :: d) 1
  have key : (levelLevelSpeed t (slice t.text 5 9) (sliceFrom t.text 9) (slice t.text 0 5) >>= fun _ =>
      rulesThenPostPoint call) ⟨e, ts⟩ = .error .valueError := by
    rw [e1, e2, bind_call]
    have : levelLevelSpeed t ['A', b1, b2, b3] (b4 :: c :: d) (slice t.text 0 5) ⟨e, ts⟩ = (.error .valueError : Res F) := by
      show (assignAltitude t _ false >>= fun _ => assignAltitude t _ true >>= _) _ = _
      rw [bd h1 he, bind_call]
      have : assignAltitude t (b4 :: c :: d) true ⟨upd t (granErr ['A', b1, b2, b3]) (mapHead (setLevel ['A', b1, b2, b3])) e, ts⟩
          = (.error .valueError : Res F) := by
        unfold assignAltitude
        rw [bd (does_modLast t _) (upd_ne h1.ne he), e3, pyInt_bad hc hd]
        rfl
      rw [this]; rfl
    rw [this]; rfl
  show (lastElement >>= _) _ = _
  rw [bind_last, head?_some he]
  dsimp only
  simp only [ccBad, List.mem_cons, List.not_mem_nil, or_false] at hbad
  rcases hbad with h | h <;> rw [h] <;> exact key

end F15
