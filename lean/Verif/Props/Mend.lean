import Verif.Lemmas.Mend2
import Verif.Props.Sequence
import Verif.Props.Tokenizer
import Verif.Spec.Example
/-!
# C15: exactly when `parse_f15` raises

The parser raises exactly when it reads a malformed cruise climb word as the levels of a cruise climb. Which words it reads that way can
be seen from the errors of the same field with well-formed words in the places of the malformed ones.
-/

namespace F15
open Spec

set_option linter.unusedSectionVars false
variable {F : Type} [PyFloat F]

theorem crash_sub {s : Str} (h : CrashText s) : getTokenType s = (.SPEED_ALTITUDE_ALTITUDE, .SPEED_ALTITUDE_NAS) ∨
    getTokenType s = (.SPEED_ALTITUDE_ALTITUDE, .SPEED_ALTITUDE_NAM) := by
  obtain ⟨a, b, c, d, ha, hb, hc, hd, rfl⟩ := h
  have key : ∀ c, wm (badW c) ('N' :: a ++ 'A' :: b ++ c :: d) = true := by
    intro c
    obtain ⟨a1, a2, a3, a4, rfl⟩ := len4 ha.1
    obtain ⟨b1, b2, b3, b4, rfl⟩ := len4 hb.1
    obtain ⟨d1, d2, d3, d4, rfl⟩ := len4 hd.1
    have dg : ∀ {l : Str} {x : Char}, Digits 4 l → x ∈ l → kD.has x = true := fun h hx => (has_kD _).2 (h.2 _ hx)
    have ch : ∀ x, (kC x).has x = true := fun x => (has_kC x x).2 rfl
    simp only [badW, List.cons_append, List.nil_append, wm, ch, Bool.true_and, Bool.and_true,
      dg ha (List.mem_cons_self), dg hb (List.mem_cons_self), dg hd (List.mem_cons_self)]
    simp [dg ha (x := a2) (by simp), dg ha (x := a3) (by simp), dg ha (x := a4) (by simp), dg hb (x := b2) (by simp),
      dg hb (x := b3) (by simp), dg hb (x := b4) (by simp), dg hd (x := d2) (by simp), dg hd (x := d3) (by simp), dg hd (x := d4) (by simp)]
  rcases hc with rfl | rfl
  · exact .inl (type_of_word (w := badW 'S') (by decide +kernel) (key _))
  · exact .inr (type_of_word (w := badW 'M') (by decide +kernel) (key _))

theorem crash_bad (t : Token) : (assignSyntax t).sub ∈ ccBad ↔ CrashText t.text := by
  constructor
  · intro h
    have hy : Typed (assignSyntax t) := typed_assign t
    obtain ⟨a, b, c, d, h1, h2, h3, h4, h5⟩ := badText_of hy h
    rw [assign_text] at h5
    exact ⟨a, b, c, d, h1, h2, h3, h4, by simpa using h5⟩
  · intro h
    have hl : t.text.length ≤ 25 := by
      obtain ⟨a, b, c, d, ha, hb, _, hd, h⟩ := h
      rw [h]; simp [ha.1, hb.1, hd.1]
    have hn : ¬ (assignSyntax t).base = .TOO_LONG := fun h => by have := (c08_too_long t).1 h; omega
    have := typed_types (typed_assign t) hn
    rw [assign_text] at this
    rcases crash_sub h with h | h <;> rw [h] at this <;> rw [← (Prod.mk.inj this).2] <;> decide

theorem assign_start (t : Token) : (assignSyntax t).start = t.start ∧ (assignSyntax t).stop = t.stop := by
  rw [assignSyntax_eq]; split <;> exact ⟨rfl, rfl⟩

theorem assign_twin (t : Token) : assignSyntax { t with text := twinText } = twin t := by
  have : getTokenType twinText = (.SPEED_ALTITUDE_ALTITUDE, .SPEED_ALTITUDE_NFF) := by decide +kernel
  rw [assignSyntax_eq]
  simp only [this]
  rw [if_neg (by decide)]
  rfl

theorem Spec.Mended.pairs {T U : List Token} (h : Mended T U) : ∃ Z : List (Token × Token), T.map assignSyntax = olds Z ∧
    U.map assignSyntax = news Z ∧ (∀ z ∈ Z, ∃ t ∈ T, z.1 = assignSyntax t) ∧
    (∀ z ∈ Z, z.1.sub ∉ ccBad ∧ z.2 = z.1 ∨ z.1.sub ∈ ccBad ∧ z.2 = twin z.1) := by
  induction h with
  | nil => exact ⟨[], rfl, rfl, (fun _ h => by cases h), (fun _ h => by cases h)⟩
  | @keep t T U h _ ih =>
    obtain ⟨Z, h1, h2, h3, h4⟩ := ih
    refine ⟨(assignSyntax t, assignSyntax t) :: Z, by simp [olds, h1], by simp [news, h2], ?_, ?_⟩
    · rintro z (_ | ⟨_, hz⟩)
      · exact ⟨t, by simp, rfl⟩
      · obtain ⟨u, hu, e⟩ := h3 z hz
        exact ⟨u, by simp [hu], e⟩
    · rintro z (_ | ⟨_, hz⟩)
      · exact .inl ⟨fun hb => h ((crash_bad t).1 hb), rfl⟩
      · exact h4 z hz
  | @mend t T U h _ ih =>
    obtain ⟨Z, h1, h2, h3, h4⟩ := ih
    refine ⟨(assignSyntax t, twin t) :: Z, by simp [olds, h1], by simp [news, h2, assign_twin], ?_, ?_⟩
    · rintro z (_ | ⟨_, hz⟩)
      · exact ⟨t, by simp, rfl⟩
      · obtain ⟨u, hu, e⟩ := h3 z hz
        exact ⟨u, by simp [hu], e⟩
    · rintro z (_ | ⟨_, hz⟩)
      · refine .inr ⟨(crash_bad t).2 h, ?_⟩
        show twin t = twin (assignSyntax t)
        unfold twin; rw [(assign_start t).1, (assign_start t).2]
      · exact h4 z hz

theorem apart_of {Z : List (Token × Token)} (h : (olds Z).Pairwise fun t u => t.start ≠ u.start) :
    ∀ z ∈ Z, ∀ w ∈ Z, z.1.start = w.1.start → z = w := by
  induction Z with
  | nil => intro z hz; cases hz
  | cons a Z ih =>
    obtain ⟨h1, h2⟩ := List.pairwise_cons.1 h
    intro z hz w hw e
    rcases List.mem_cons.1 hz with rfl | hz1 <;> rcases List.mem_cons.1 hw with rfl | hw1
    · rfl
    · exact absurd e (h1 _ (List.mem_map_of_mem hw1))
    · exact absurd e.symm (h1 _ (List.mem_map_of_mem hz1))
    · exact ih h2 z hz1 w hw1 e

theorem new_twin (Z : List (Token × Token)) : Twin (F := F) Z Ers.new Ers.new :=
  ⟨.cons ⟨rfl, rfl⟩ .nil, (fun _ h => by cases h), new_ne⟩

/-- Runs. -/
def TwinRun (Z : List (Token × Token)) (r r' : Except PyErr (Ers F)) : Prop :=
  match r, r' with
  | _, .error _ => True
  | .ok e, .ok f => ∀ x ∈ f.errs, ¬ Mark Z x
  | .error _, .ok f => ∃ x ∈ f.errs, Mark Z x

theorem run_twin {z : Token × Token} {zs : List (Token × Token)} (hz : Twins (z :: zs)) (n : Nat) :
    TwinRun (F := F) (z :: zs) (runL n Ers.new z.1 (olds zs)) (runL n Ers.new z.2 (news zs)) := by
  have ih : TIH (F := F) (z :: zs) (exec n) := twin_exec hz n
  have k0 := new_twin (F := F) (z :: zs)
  have hm : z ∈ z :: zs := by simp
  have hs : zs <:+ z :: zs := ⟨[z], rfl⟩
  have hb := hz.base hm
  have hnil : olds zs = [] ↔ news zs = [] := by cases zs <;> simp [olds, news]
  unfold runL
  rw [← hb]
  cases h : z.1.base
  case SPEED_VFR =>
    dsimp only
    have g := ih.apply (.vfr hm h) hs k0
    generalize exec n (.assignSpeedVfr z.1) (⟨Ers.new, olds zs⟩ : St (List Token) F) = r at g ⊢
    generalize exec n (.assignSpeedVfr z.2) (⟨Ers.new, news zs⟩ : St (List Token) F) = s at g ⊢
    cases r with
    | error x => cases s with
      | error => exact trivial
      | ok s =>
        dsimp only
        cases hf : setFirstRules s.2.ers (py! "VFR") with
        | error => exact trivial
        | ok f =>
          have : f.errs = s.2.ers.errs := by unfold setFirstRules at hf; split at hf <;> cases hf; rfl
          show ∃ x ∈ f.errs, _
          rw [this]; exact g
    | ok r => cases s with
      | error => dsimp only; cases setFirstRules r.2.ers (py! "VFR") <;> exact trivial
      | ok s =>
        dsimp only
        rw [setFirst_eq _ g.1.ne, setFirst_eq _ g.1.ne']
        exact g.1.errs
  case SPEED_ALTITUDE =>
    dsimp only
    have g := ih.apply (.level hm h) hs k0
    generalize exec n (.assignSpeedAltitude z.1) (⟨Ers.new, olds zs⟩ : St (List Token) F) = r at g ⊢
    generalize exec n (.assignSpeedAltitude z.2) (⟨Ers.new, news zs⟩ : St (List Token) F) = s at g ⊢
    cases s with
    | error => cases r <;> simp [TwinRun] <;> (split <;> trivial)
    | ok s =>
      obtain ⟨v, e2, t2⟩ := s
      cases r with
      | error x =>
        dsimp only
        obtain ⟨y, hy, hk⟩ := g
        by_cases hn : news zs = []
        · rw [if_pos hn]
          have gr := Grows.exec (σ := List Token) (F := F) n (.addErrorAndReSync z.2 49)
          cases hr : exec n (.addErrorAndReSync z.2 49) (⟨e2, t2⟩ : St (List Token) F) with
          | error => exact trivial
          | ok p => exact ⟨y, gr.out _ p.1 p.2 hr y hy, hk⟩
        · rw [if_neg hn]
          exact ⟨y, hy, hk⟩
      | ok r =>
        obtain ⟨u, e1, t1⟩ := r
        obtain ⟨g1, ws, g2, g3, g4⟩ := g
        dsimp only at g1 g3 g4 ⊢
        by_cases hn : olds zs = []
        · rw [if_pos hn, if_pos (hnil.1 hn), g3, g4]
          have g := ih.apply (.err hm (n := 49) (by decide) rfl) g2 g1
          generalize exec n (.addErrorAndReSync z.1 49) (⟨e1, olds ws⟩ : St (List Token) F) = r at g ⊢
          generalize exec n (.addErrorAndReSync z.2 49) (⟨e2, news ws⟩ : St (List Token) F) = s at g ⊢
          cases r <;> cases s
          · exact trivial
          · exact g
          · exact trivial
          · exact g.1.errs
        · rw [if_neg hn, if_neg (fun h => hn (hnil.2 h))]
          exact g1.errs
  all_goals
    dsimp only
    have g := ih.apply (.err hm (n := 1) (by decide) rfl) hs k0
    generalize exec n (.addErrorAndReSync z.1 1) (⟨Ers.new, olds zs⟩ : St (List Token) F) = r at g ⊢
    generalize exec n (.addErrorAndReSync z.2 1) (⟨Ers.new, news zs⟩ : St (List Token) F) = s at g ⊢
    cases r <;> cases s
    · exact trivial
    · exact g
    · exact trivial
    · exact g.1.errs

theorem not_crash_twin : ¬ CrashText twinText := by
  intro h
  have h2 : getTokenType twinText = (.SPEED_ALTITUDE_ALTITUDE, .SPEED_ALTITUDE_NFF) := by decide +kernel
  rcases crash_sub h with h | h <;> rw [h2] at h <;> cases h

theorem Spec.Mended.clean {T U : List Token} (h : Mended T U) : T.length = U.length ∧ ∀ t ∈ U, ¬ CrashText t.text := by
  induction h with
  | nil => exact ⟨rfl, fun _ h => by cases h⟩
  | keep h _ ih =>
    refine ⟨by simp [ih.1], ?_⟩
    rintro z (_ | ⟨_, hz⟩)
    · exact h
    · exact ih.2 z hz
  | mend h _ ih =>
    refine ⟨by simp [ih.1], ?_⟩
    rintro z (_ | ⟨_, hz⟩)
    · exact not_crash_twin
    · exact ih.2 z hz

theorem errorIs_level {t : Token} {x y : Record F} (h : ErrorIs t 40 x) (k : ErrorIs t 40 y) : x = y := by
  have u : ∀ m ∈ errorMessages, m.1 = 40 → m.2 = (errorMessage 40).getD [] := by decide +kernel
  obtain ⟨m1, h1, rfl⟩ := h
  obtain ⟨m2, h2, rfl⟩ := k
  have e1 : m1 = _ := u _ h1 rfl
  have e2 : m2 = _ := u _ h2 rfl
  rw [e1, e2]

theorem run_ne' {n : Nat} {t : Token} {ts : List Token} {e' : Ers F} (hT : ∀ x ∈ t :: ts, Typed x) (h : runL n Ers.new t ts = .ok e') :
    e'.recs ≠ [] := by
  have := run_trace n (Ers.new (F := F)) new_ne t ts hT
  rw [h] at this
  obtain ⟨e1, ⟨ts1, hs⟩, rfl⟩ := this
  exact post_ne t e1 (hs.invs ⟨Act.run_ne _ _ new_ne, List.suffix_cons _ _⟩).ne

theorem new_el : (Ers.new (F := F)).elements ≠ [] := List.reverse_ne_nil_iff.2 new_ne

/-- **C15 (exactly)** With four frames per token, `parse_f15` raises an exception, and it is `ValueError`, if and only if the same field
with a well-formed word in the place of each malformed one is told an error about the level of one of these words. -/
theorem c15_exact {frames : Nat} {T U : Tokens} (hd : T.toks.Pairwise fun t u => t.start ≠ u.start) (hm : Mended T.toks U.toks)
    (hf : 4 * T.toks.length ≤ frames) :
    parseF15 (F := F) frames Ers.new T = .error .valueError ↔
      ∃ b e, parseF15 (F := F) frames Ers.new U = .ok (b, e) ∧ ∃ t ∈ T.toks, CrashText t.text ∧ ∃ x ∈ e.errors, ToldLevel t x := by
  obtain ⟨b, f, hU⟩ := c15_returns_partial (F := F) new_el U (by rw [← hm.clean.1]; exact hf) hm.clean.2
  have hT : ∀ x, parseF15 (F := F) frames Ers.new T = .error x → x = .valueError := by
    intro x hx
    rcases c15_partial new_el hx with rfl | ⟨h, _⟩
    · exact absurd hx (c16_enough new_el T hf)
    · exact h
  obtain ⟨Z, h1, h2, h3, h4⟩ := hm.pairs
  have hz : Twins Z := by
    refine ⟨fun z h => ?_, h4, apart_of ?_⟩
    · obtain ⟨t, _, e⟩ := h3 z h
      rw [e]; exact typed_assign t
    · rw [← h1]
      exact List.pairwise_map.2 (hd.imp fun h => by rw [(assign_start _).1, (assign_start _).1]; exact h)
  have mark : ∀ x : Record F, Mark Z x ↔ ∃ t ∈ T.toks, CrashText t.text ∧ ToldLevel t x := by
    intro x
    constructor
    · rintro ⟨z, hz', hb, rfl⟩
      obtain ⟨t, ht, e⟩ := h3 z hz'
      refine ⟨t, ht, (crash_bad t).1 (e ▸ hb), ?_⟩
      rcases h4 z hz' with ⟨h, _⟩ | ⟨_, h⟩
      · exact absurd hb h
      · rw [h, e]
        have := errRec_is (F := F) (t := twin (assignSyntax t)) (n := 40) rfl
        unfold twin at this
        rw [(assign_start t).1, (assign_start t).2] at this
        unfold twin; rw [(assign_start t).1, (assign_start t).2]
        exact this
    · rintro ⟨t, ht, hc, hx⟩
      have : assignSyntax t ∈ olds Z := by rw [← h1]; exact List.mem_map_of_mem ht
      obtain ⟨z, hz', e⟩ := List.mem_map.1 this
      have hb : z.1.sub ∈ ccBad := by rw [e]; exact (crash_bad t).2 hc
      refine ⟨z, hz', hb, ?_⟩
      rcases h4 z hz' with ⟨h, _⟩ | ⟨_, h⟩
      · exact absurd hb h
      · have e2 : z.2 = twin t := by rw [h, e]; unfold twin; rw [(assign_start t).1, (assign_start t).2]
        rw [e2]
        exact errorIs_level hx (errRec_is rfl)
  have key : (∃ x, parseF15 (F := F) frames Ers.new T = .error x) ↔ ∃ x ∈ f.errors, Mark Z x := by
    rw [parse_eq] at hU ⊢
    rw [h1]; rw [h2] at hU
    cases Z with
    | nil =>
      simp only [olds, news, List.map_nil, parseL] at hU ⊢
      constructor
      · rintro ⟨x, hx⟩; cases hx
      · rintro ⟨x, _, z, hz, _⟩; cases hz
    | cons z zs =>
      have g := run_twin (F := F) hz frames
      have pl : ∀ t l, parseL frames (Ers.new (F := F)) (t :: l) = (match runL frames Ers.new t l with
        | .ok e => finish e
        | .error x => .error x) := fun _ _ => rfl
      have ht1 : ∀ x ∈ olds (z :: zs), Typed x := by
        intro x hx; obtain ⟨w, hw, rfl⟩ := List.mem_map.1 hx; exact hz.fst w hw
      have ht2 : ∀ x ∈ news (z :: zs), Typed x := by
        intro x hx; obtain ⟨w, hw, rfl⟩ := List.mem_map.1 hx; exact hz.snd w hw
      change parseL frames Ers.new (z.2 :: news zs) = _ at hU
      change (∃ x, parseL frames Ers.new (z.1 :: olds zs) = _) ↔ _
      rw [pl] at hU ⊢
      cases hr2 : runL frames (Ers.new (F := F)) z.2 (news zs) with
      | error => rw [hr2] at hU; cases hU
      | ok f' =>
        rw [hr2] at hU g
        dsimp only at hU
        have hne : f'.recs ≠ [] := run_ne' ht2 hr2
        rw [finish_eq _ hne] at hU
        have he : f.errors = f'.errs.reverse := by
          have : finErs f' = f := congrArg Prod.snd (Except.ok.inj hU)
          rw [← this]; rfl
        cases hr1 : runL frames (Ers.new (F := F)) z.1 (olds zs) with
        | error x =>
          rw [hr1] at g
          refine ⟨fun _ => ?_, fun _ => ⟨x, rfl⟩⟩
          obtain ⟨y, hy, hk⟩ := g
          exact ⟨y, by rw [he]; exact List.mem_reverse.2 hy, hk⟩
        | ok e' =>
          rw [hr1] at g
          dsimp only
          have hne1 : e'.recs ≠ [] := run_ne' ht1 hr1
          rw [finish_eq _ hne1]
          constructor
          · rintro ⟨x, hx⟩; cases hx
          · rintro ⟨x, hx, hk⟩
            rw [he] at hx
            exact absurd hk (g x (List.mem_reverse.1 hx))
  constructor
  · intro h
    obtain ⟨x, hx, hk⟩ := key.1 ⟨_, h⟩
    obtain ⟨t, ht, hc, hl⟩ := (mark x).1 hk
    exact ⟨b, f, hU, t, ht, hc, x, hx, hl⟩
  · rintro ⟨b', f', h, t, ht, hc, x, hx, hl⟩
    rw [hU] at h
    cases h
    obtain ⟨y, hy⟩ := key.2 ⟨x, hx, (mark x).2 ⟨t, ht, hc, hl⟩⟩
    rw [hy, hT y hy]

/-- **C15 (otherwise)** In all other cases `parse_f15` returns. -/
theorem c15_otherwise {frames : Nat} {T U : Tokens} (hd : T.toks.Pairwise fun t u => t.start ≠ u.start) (hm : Mended T.toks U.toks)
    (hf : 4 * T.toks.length ≤ frames)
    (hn : ¬ ∃ b e, parseF15 (F := F) frames Ers.new U = .ok (b, e) ∧ ∃ t ∈ T.toks, CrashText t.text ∧ ∃ x ∈ e.errors, ToldLevel t x) :
    ∃ b e, parseF15 (F := F) frames Ers.new T = .ok (b, e) := by
  cases h : parseF15 (F := F) frames Ers.new T with
  | ok p => exact ⟨p.1, p.2, rfl⟩
  | error x =>
    rcases c15_partial new_el h with rfl | ⟨rfl, _⟩
    · exact absurd h (c16_enough new_el T hf)
    · exact absurd ((c15_exact hd hm hf).1 h) hn

/-- Every field can be mended. -/
theorem mended_exists (T : List Token) : ∃ U, Mended T U := by
  induction T with
  | nil => exact ⟨[], .nil⟩
  | cons t T ih =>
    obtain ⟨U, h⟩ := ih
    rcases Classical.em (CrashText t.text) with hc | hc
    · exact ⟨_, .mend hc h⟩
    · exact ⟨_, .keep hc h⟩

/-- **C15 (exactly)** The words of a text stand at different places, so `c15_exact` holds for every text. -/
theorem c15_exact_text {frames : Nat} (ws s : Str) {U : List Token} (hm : Mended (tokenizeList ws s) U)
    (hf : 4 * (tokenizeList ws s).length ≤ frames) :
    parseF15 (F := F) frames Ers.new ⟨tokenizeList ws s, 0⟩ = .error .valueError ↔
      ∃ b e, parseF15 (F := F) frames Ers.new ⟨U, 0⟩ = .ok (b, e) ∧
        ∃ t ∈ tokenizeList ws s, CrashText t.text ∧ ∃ x ∈ e.errors, ToldLevel t x := by
  refine c15_exact (T := ⟨tokenizeList ws s, 0⟩) (U := ⟨U, 0⟩) ?_ hm hf
  refine (c02_disjoint ws s).imp fun {a b} h => ?_
  omega

/-! ### Examples -/

/-- The mended field, computed. -/
def mendAll (T : List Token) : List Token :=
  T.map fun t => if (assignSyntax t).sub ∈ ccBad then { t with text := twinText } else t

theorem mendAll_mended (T : List Token) : Mended T (mendAll T) := by
  induction T with
  | nil => exact .nil
  | cons t T ih =>
    unfold mendAll at ih ⊢
    rw [List.map_cons]
    by_cases h : (assignSyntax t).sub ∈ ccBad
    · rw [if_pos h]; exact .mend ((crash_bad t).1 h) ih
    · rw [if_neg h]; exact .keep (fun hc => h ((crash_bad t).2 hc)) ih

/-- Two malformed words: the first, in the free text of a VFR section, does no harm; the second is read as the levels of a cruise climb.
With well-formed words in their places, there is an error about the second and none about the first. -/
example :
    (match parseText (py! "N0450F350 ABC VFR N0450A0450S1130 IFR DEF/N0450F350 C/GHI/N0450A0450S1130") with
      | .ok _ => false | .error x => decide (x = .valueError)) = true ∧
    (match parseF15 (F := Rat) 1000 Ers.new
        ⟨mendAll (tokenizeList f15Whitespace (py! "N0450F350 ABC VFR N0450A0450S1130 IFR DEF/N0450F350 C/GHI/N0450A0450S1130")), 0⟩ with
      | .ok (_, e) => decide (e.errors.map (fun x => (x.name, x.start)) = [(twinText, 58)])
      | .error _ => false) = true ∧
    check (py! "N0450F350 ABC VFR N0450A0450S1130 IFR DEF/N0450F350 C/GHI/N0450F350F370") (fun b _ => b) = true := by
  refine ⟨by decide +kernel, by decide +kernel, by decide +kernel⟩

end F15
