import Verif.Lemmas.Splice
import Verif.Spec.Insert
/-!
# Another continuation behind a point
-/

namespace F15
open Spec

set_option linter.unusedSectionVars false

theorem split_next {m : Token × Role} {l mb after : List (Token × Role)} {p : Token} (he : m :: l = mb ++ (p, .head) :: after)
    (hp : p.base = .POINT) (hm : ¬ (m.2 = .head ∧ m.1.base = .POINT)) : ∃ mb', mb = m :: mb' ∧ l = mb' ++ (p, .head) :: after := by
  cases mb with
  | nil => cases he; exact absurd ⟨rfl, hp⟩ hm
  | cons x mb =>
    simp only [List.cons_append, List.cons.injEq] at he
    obtain ⟨rfl, rfl⟩ := he
    exact ⟨mb, rfl, rfl⟩

/-- Begins with a slash. -/
def Slashed (w : List Token) : Prop := ∃ s rest, w = s :: rest ∧ s.base = .SLASH

/-- A route that goes on with a slash behind a point. -/
theorem run_slashed {f : Bool} {w : List Token} {as : List Act} (h : Run (.point f) w as) (hw : Slashed w) :
    ∃ s l rest as, w = s :: l :: rest ∧ s.base = .SLASH ∧
      ((l.base = .SPEED_ALTITUDE ∧ (Act.level l).nums = [] ∧ Run (.point f) rest as) ∨ (l.base = .SPEED_VFR ∧ Run (.text (py! "VFR")) rest as)) := by
  obtain ⟨s, rest, rfl, hs⟩ := hw
  generalize hq : Phase.point f = q at h
  cases h with
  | truncate _ hb | dct _ hb | route _ hb | climb _ hb | cruise _ hb | stay _ hb | break_ _ hb | point _ hb => rw [hs] at hb; cases hb
  | star _ hb => rcases hb with hb | ⟨hb, _⟩ <;> rw [hs] at hb <;> cases hb
  | sid hb => cases hq
  | word | resume | resumeIfr | resumeVfr => cases hq
  | level h1 h2 h3 h4 => cases hq; exact ⟨_, _, _, _, rfl, h1, .inl ⟨h2, h3 trivial, h4⟩⟩
  | vfr h1 h2 h3 => exact ⟨_, _, _, _, rfl, h1, .inr ⟨h2, h3⟩⟩

/-- A slash that follows a point directly behind `IFR` may not be taken away. -/
def Stands (mb after : List (Token × Role)) (w : List Token) : Prop :=
  ∀ x, mb.getLast? = some x → x.1.sub = .IFR → Slashed (after.map (·.1)) → Slashed w

theorem Stands.tail {m : Token × Role} {mb after : List (Token × Role)} {w : List Token} (h : Stands (m :: mb) after w) : Stands mb after w := by
  intro x hx
  refine h x ?_
  cases mb with
  | nil => cases hx
  | cons y mb => rw [List.getLast?_cons_cons]; exact hx

theorem run_swap {q : Phase} {ts : List Token} {as : List Act} (h : Run q ts as) {p : Token} (hp : p.base = .POINT) (hn : posNums p = [])
    {w : List Token} {as' : List Act} (hw : Run (.point (isFixed p)) w as') : ∀ {mb after : List (Token × Role)},
    mark (modeOf q) ts = mb ++ (p, .head) :: after → Stands mb after w →
    (∃ as, Run q (mb.map (·.1) ++ p :: w) as) ∧ mark (modeOf q) (mb.map (·.1) ++ p :: w) = mb ++ (p, .head) :: mark (.route false) w := by
  have none : ∀ {mb after : List (Token × Role)}, ([] : List (Token × Role)) = mb ++ (p, .head) :: after → False := by
    intro mb after h; cases mb <;> cases h
  induction h with
  | stop q => intro mb after he; rw [mark_nil] at he; exact (none he).elim
  | @truncate q t hq hb =>
    intro mb after he
    rw [mark_plain hq (not_cruise (by simp [hb])), mark_nil] at he
    obtain ⟨mb', hmb', he'⟩ := split_next he hp (by simp [hb]); subst hmb'; clear he; revert mb'; intro mb he
    exact (none he).elim
  | @star q t hq hb =>
    intro mb after he
    rw [mark_plain hq (not_cruise (by rcases hb with hb | ⟨hb, _⟩ <;> simp [hb])), mark_nil] at he
    obtain ⟨mb', hmb', he'⟩ := split_next he hp (by rcases hb with hb | ⟨hb, h⟩ <;> simp [hb]); subst hmb'; clear he; revert mb'; intro mb he
    exact (none he).elim
  | @sid t ts as hb h ih =>
    intro mb after he hs
    have hc : t.base ≠ .C := by rcases hb with hb | hb <;> simp [hb]
    have hma : modeAfter t = .route false := by rcases hb with hb | hb <;> simp [modeAfter, hb]
    have e0 : ∀ l, mark (modeOf .adep) (t :: l) = (t, roleOf true t) :: mark (.route false) l := fun l => by
      show mark (.route true) (t :: l) = _
      rw [mark_route hc, hma]
    rw [e0] at he
    obtain ⟨mb', hmb', he'⟩ := split_next he hp (by rcases hb with hb | hb <;> simp [hb]); subst hmb'; clear he; revert mb'; intro mb he hs
    obtain ⟨⟨x, h1⟩, h2⟩ := ih he hs.tail
    rw [List.map_cons, List.cons_append, e0]
    exact ⟨⟨_, .sid hb h1⟩, congrArg _ h2⟩
  | @dct q t ts as hq hb h ih =>
    intro mb after he hs
    have e0 : ∀ l, mark (modeOf q) (t :: l) = (t, roleOf (decide (q = .adep)) t) :: mark (.route false) l := fun l => by
      rw [mark_plain hq (not_cruise (by simp [hb])), show modeAfter t = .route false by simp [modeAfter, hb]]
    rw [e0] at he
    obtain ⟨mb', hmb', he'⟩ := split_next he hp (by simp [hb]); subst hmb'; clear he; revert mb'; intro mb he hs
    obtain ⟨⟨x, h1⟩, h2⟩ := ih he hs.tail
    rw [List.map_cons, List.cons_append, e0]
    exact ⟨⟨_, .dct hq hb h1⟩, congrArg _ h2⟩
  | @route q t ts as hq hb h ih =>
    intro mb after he hs
    have e0 : ∀ l, mark (modeOf q) (t :: l) = (t, roleOf (decide (q = .adep)) t) :: mark (.route false) l := fun l => by
      rw [mark_plain hq (not_cruise (by simp [hb])), show modeAfter t = .route false by simp [modeAfter, hb]]
    rw [e0] at he
    obtain ⟨mb', hmb', he'⟩ := split_next he hp (by simp [hb]); subst hmb'; clear he; revert mb'; intro mb he hs
    obtain ⟨⟨x, h1⟩, h2⟩ := ih he hs.tail
    rw [List.map_cons, List.cons_append, e0]
    exact ⟨⟨_, .route hq hb h1⟩, congrArg _ h2⟩
  | @point q t ts as hq hb hn' h ih =>
    intro mb after he hs
    have e0 : ∀ l, mark (modeOf q) (t :: l) = (t, .head) :: mark (.route false) l := fun l => by
      rw [mark_plain hq (not_cruise (by simp [hb])), show modeAfter t = .route false by simp [modeAfter, hb],
        show roleOf (decide (q = .adep)) t = .head by simp [roleOf, hb]]
    rw [e0] at he
    cases mb with
    | nil =>
      cases he
      rw [List.map_nil, List.nil_append, e0]
      exact ⟨⟨_, .point hq hb (fun _ => hn) hw⟩, rfl⟩
    | cons x mb =>
      simp only [List.cons_append, List.cons.injEq] at he
      obtain ⟨rfl, he⟩ := he
      obtain ⟨⟨x, h1⟩, h2⟩ := ih he hs.tail
      rw [List.map_cons, List.cons_append, e0]
      exact ⟨⟨_, .point hq hb hn' h1⟩, congrArg _ h2⟩
  | @climb q t ts as hq hb h ih =>
    intro mb after he hs
    have hma : modeAfter t = .route false := by simp [modeAfter, hb]
    rw [mark_plain hq (climb_next h), hma] at he
    obtain ⟨mb', hmb', he'⟩ := split_next he hp (by simp [hb]); subst hmb'; clear he; revert mb'; intro mb he hs
    obtain ⟨⟨x, h1⟩, h2⟩ := ih he hs.tail
    rw [List.map_cons, List.cons_append, mark_plain hq (climb_next h1), hma]
    exact ⟨⟨_, .climb hq hb h1⟩, congrArg _ h2⟩
  | @cruise q t s p' s' l a ts as hq hb hs hp' hs' hl h ih =>
    intro mb after he hsl
    rw [mark_cruise hq hb hs hs' hl.base] at he
    obtain ⟨mb', hmb', he'⟩ := split_next he hp (by simp); subst hmb'; clear he; revert mb'; intro mb he hsl
    obtain ⟨mb', hmb', he'⟩ := split_next he hp (by simp); subst hmb'; clear he; revert mb'; intro mb he hsl
    obtain ⟨mb', hmb', he'⟩ := split_next he hp (by simp); subst hmb'; clear he; revert mb'; intro mb he hsl
    obtain ⟨mb', hmb', he'⟩ := split_next he hp (by simp); subst hmb'; clear he; revert mb'; intro mb he hsl
    obtain ⟨mb', hmb', he'⟩ := split_next he hp (by simp); subst hmb'; clear he; revert mb'; intro mb he hsl
    obtain ⟨⟨x, h1⟩, h2⟩ := ih he hsl.tail.tail.tail.tail.tail
    refine ⟨⟨_, .cruise hq hb hs hp' hs' hl h1⟩, ?_⟩
    have h2' : mark (.route false) (mb.map (·.1) ++ p :: w) = mb ++ (p, .head) :: mark (.route false) w := h2
    simp only [List.map_cons, List.cons_append]
    rw [mark_cruise hq hb hs hs' hl.base, h2']
  | @stay q t s m ts as hq hb hs hm h ih =>
    intro mb after he hsl
    have e0 : ∀ ts, mark (modeOf q) (t :: s :: m :: ts) = (t, roleOf (decide (q = .adep)) t) :: (s, roleOf false s) :: (m, roleOf false m) ::
        mark (.route false) ts := by
      intro ts
      rw [mark_plain hq (not_cruise (by simp [hb])),
        show modeAfter t = .route false by simp [modeAfter, hb], mark_route (by simp [hs]),
        show modeAfter s = .route false by simp [modeAfter, hs], mark_route (by simp [hm]),
        show modeAfter m = .route false by simp [modeAfter, hm]]
    rw [e0] at he
    obtain ⟨mb', hmb', he'⟩ := split_next he hp (by simp [hb]); subst hmb'; clear he; revert mb'; intro mb he hsl
    obtain ⟨mb', hmb', he'⟩ := split_next he hp (by simp [hs]); subst hmb'; clear he; revert mb'; intro mb he hsl
    obtain ⟨mb', hmb', he'⟩ := split_next he hp (by simp [hm]); subst hmb'; clear he; revert mb'; intro mb he hsl
    obtain ⟨⟨x, h1⟩, h2⟩ := ih he hsl.tail.tail.tail
    refine ⟨⟨_, .stay hq hb hs hm h1⟩, ?_⟩
    have h2' : mark (.route false) (mb.map (·.1) ++ p :: w) = mb ++ (p, .head) :: mark (.route false) w := h2
    simp only [List.map_cons, List.cons_append]
    rw [e0, h2']
  | @break_ q t ts as hq hb h ih =>
    intro mb after he hs
    have e0 : ∀ l, mark (modeOf q) (t :: l) = (t, roleOf (decide (q = .adep)) t) :: mark (.text (rulesOfBreak t.sub)) l := fun l => by
      rw [mark_plain hq (not_cruise (by simp [hb])), show modeAfter t = .text (rulesOfBreak t.sub) by simp [modeAfter, hb]]
    rw [e0] at he
    obtain ⟨mb', hmb', he'⟩ := split_next he hp (by simp [hb]); subst hmb'; clear he; revert mb'; intro mb he hs
    obtain ⟨⟨x, h1⟩, h2⟩ := ih he hs.tail
    rw [List.map_cons, List.cons_append, e0]
    exact ⟨⟨_, .break_ hq hb h1⟩, congrArg _ h2⟩
  | @level f s l ts as hs hb hl h ih =>
    intro mb after he hsl
    have e0 : ∀ ts, mark (modeOf (.point f)) (s :: l :: ts) = (s, roleOf false s) :: (l, roleOf false l) :: mark (.route false) ts := by
      intro ts
      show mark (.route false) (s :: l :: ts) = _
      rw [mark_route (by simp [hs]),
        show modeAfter s = .route false by simp [modeAfter, hs], mark_route (by simp [hb]),
        show modeAfter l = .route false by simp [modeAfter, hb]]
    rw [e0] at he
    obtain ⟨mb', hmb', he'⟩ := split_next he hp (by simp [hs]); subst hmb'; clear he; revert mb'; intro mb he hsl
    obtain ⟨mb', hmb', he'⟩ := split_next he hp (by simp [hb]); subst hmb'; clear he; revert mb'; intro mb he hsl
    obtain ⟨⟨x, h1⟩, h2⟩ := ih he hsl.tail.tail
    refine ⟨⟨_, .level hs hb hl h1⟩, ?_⟩
    have h2' : mark (.route false) (mb.map (·.1) ++ p :: w) = mb ++ (p, .head) :: mark (.route false) w := h2
    simp only [List.map_cons, List.cons_append]
    rw [e0, h2']
  | @vfr f s l ts as hs hb h ih =>
    intro mb after he hsl
    have e0 : ∀ ts, mark (modeOf (.point f)) (s :: l :: ts) = (s, roleOf false s) :: (l, roleOf false l) :: mark (.text (py! "VFR")) ts := by
      intro ts
      show mark (.route false) (s :: l :: ts) = _
      rw [mark_route (by simp [hs]),
        show modeAfter s = .route false by simp [modeAfter, hs], mark_route (by simp [hb]),
        show modeAfter l = .text (py! "VFR") by simp [modeAfter, hb]]
    rw [e0] at he
    obtain ⟨mb', hmb', he'⟩ := split_next he hp (by simp [hs]); subst hmb'; clear he; revert mb'; intro mb he hsl
    obtain ⟨mb', hmb', he'⟩ := split_next he hp (by simp [hb]); subst hmb'; clear he; revert mb'; intro mb he hsl
    obtain ⟨⟨x, h1⟩, h2⟩ := ih he hsl.tail.tail
    refine ⟨⟨_, .vfr hs hb h1⟩, ?_⟩
    have h2' : mark (.text (py! "VFR")) (mb.map (·.1) ++ p :: w) = mb ++ (p, .head) :: mark (.route false) w := h2
    simp only [List.map_cons, List.cons_append]
    rw [e0, h2']
  | @word r t ts as hb hc h ih =>
    intro mb after he hs
    have he0 : mark (.text r) (t :: ts) = mb ++ (p, .head) :: after := he
    rw [mark_word hc] at he0; clear he
    obtain ⟨mb', hmb', he'⟩ := split_next he0 hp (by simp); subst hmb'; clear he0; revert mb'; intro mb he hs
    obtain ⟨⟨x, h1⟩, h2⟩ := ih he hs.tail
    have hro : readOn t (mb.map (·.1) ++ p :: w) ↔ readOn t ts := by
      have hts : ts = mb.map (·.1) ++ p :: after.map (·.1) := by
        have := congrArg (List.map (·.1)) he
        rw [mark_tokens] at this
        simpa using this
      match mb, he, hts with
      | [], he, _ =>
        cases ts with
        | nil => rw [mark_nil] at he; cases he
        | cons y ts => rw [mark] at he; cases he
      | [y], _, hts => rw [hts]; simp [readOn, hp]
      | y :: z :: mb, _, hts => rw [hts]; simp [readOn, hp]
    have hc' : closes t r → readOn t (mb.map (·.1) ++ p :: w) := fun h => hro.2 (hc h)
    refine ⟨⟨_, .word hb hc' h1⟩, ?_⟩
    show mark (.text r) (t :: (mb.map (·.1) ++ p :: w)) = _
    rw [mark_word hc']
    exact congrArg _ h2
  | @resume r t p' ts as hc hi hb hp' hn' h ih =>
    intro mb after he hs
    have e0 : ∀ ts, mark (modeOf (.text r)) (t :: p' :: ts) = (t, .word) :: (p', .head) :: mark (.route false) ts := by
      intro ts
      show mark (.text r) (t :: p' :: ts) = _
      rw [mark_close hc (not_readOn hp' (.inl hi)), mark_route (by simp [hp']), show roleOf false p' = .head by simp [roleOf, hp'],
        show modeAfter p' = .route false by simp [modeAfter, hp']]
    rw [e0] at he
    obtain ⟨mb', hmb', he'⟩ := split_next he hp (by simp); subst hmb'; clear he; revert mb'; intro mb he hs
    cases mb with
    | nil =>
      cases he
      simp only [List.map_cons, List.map_nil, List.cons_append, List.nil_append]
      rw [e0]
      exact ⟨⟨_, .resume hc hi hb hp' (fun _ => hn) hw⟩, rfl⟩
    | cons x mb =>
      simp only [List.cons_append, List.cons.injEq] at he
      obtain ⟨rfl, he⟩ := he
      obtain ⟨⟨x, h1⟩, h2⟩ := ih he hs.tail.tail
      refine ⟨⟨_, .resume hc hi hb hp' hn' h1⟩, ?_⟩
      have h2' : mark (.route false) (mb.map (·.1) ++ p :: w) = mb ++ (p, .head) :: mark (.route false) w := h2
      simp only [List.map_cons, List.cons_append]
      rw [e0, h2']
  | @resumeIfr r t p' s l ts as hc hi hb hp' hn' hs hl hk h ih =>
    intro mb after he hsl
    have e0 : ∀ ts, mark (modeOf (.text r)) (t :: p' :: s :: ts) = (t, .word) :: (p', .head) :: mark (.route false) (s :: ts) := by
      intro ts
      show mark (.text r) (t :: p' :: s :: ts) = _
      rw [mark_close hc (not_readOn hp' (.inr (by simp [hs]))), mark_route (by simp [hp']), show roleOf false p' = .head by simp [roleOf, hp'],
        show modeAfter p' = .route false by simp [modeAfter, hp']]
    have e1 : ∀ ts, mark (.route false) (s :: l :: ts) = (s, .note) :: (l, .note) :: mark (.route false) ts := by
      intro ts
      rw [mark_route (by simp [hs]), show roleOf false s = .note by simp [roleOf, hs],
        show modeAfter s = .route false by simp [modeAfter, hs], mark_route (by simp [hl]),
        show roleOf false l = .note by simp [roleOf, hl],
        show modeAfter l = .route false by simp [modeAfter, hl]]
    rw [e0] at he
    obtain ⟨mb', hmb', he'⟩ := split_next he hp (by simp); subst hmb'; clear he; revert mb'; intro mb he hsl
    cases mb with
    | nil =>
      cases he
      obtain ⟨s2, l2, rest, as2, rfl, hs2, hcase⟩ := run_slashed hw (hsl _ rfl hi ⟨s, l :: ts, by rw [mark_tokens], hs⟩)
      have e2 : mark (modeOf (.text r)) (t :: p :: s2 :: l2 :: rest) = (t, .word) :: (p, .head) :: mark (.route false) (s2 :: l2 :: rest) := by
        show mark (.text r) (t :: p :: s2 :: l2 :: rest) = _
        rw [mark_close hc (not_readOn hp (.inr (by simp [hs2]))), mark_route (by simp [hp]), show roleOf false p = .head by simp [roleOf, hp],
          show modeAfter p = .route false by simp [modeAfter, hp]]
      refine ⟨?_, e2⟩
      rcases hcase with ⟨g1, g2, g3⟩ | ⟨g1, g2⟩
      · exact ⟨_, .resumeIfr hc hi hb hp hn' hs2 g1 (fun _ => g2) g3⟩
      · exact ⟨_, .resumeVfr hc hi hb hp hs2 g1 g2⟩
    | cons x mb =>
      simp only [List.cons_append, List.cons.injEq] at he
      obtain ⟨rfl, he⟩ := he
      rw [e1] at he
      obtain ⟨mb', hmb', he'⟩ := split_next he hp (by simp); subst hmb'; clear he; revert mb'; intro mb he hsl
      obtain ⟨mb', hmb', he'⟩ := split_next he hp (by simp); subst hmb'; clear he; revert mb'; intro mb he hsl
      obtain ⟨⟨x, h1⟩, h2⟩ := ih he hsl.tail.tail.tail.tail
      refine ⟨⟨_, .resumeIfr hc hi hb hp' hn' hs hl hk h1⟩, ?_⟩
      have h2' : mark (.route false) (mb.map (·.1) ++ p :: w) = mb ++ (p, .head) :: mark (.route false) w := h2
      simp only [List.map_cons, List.cons_append]
      rw [e0, e1, h2']
  | @resumeVfr r t p' s l ts as hc hi hb hp' hs hl h ih =>
    intro mb after he hsl
    have e0 : ∀ ts, mark (modeOf (.text r)) (t :: p' :: s :: ts) = (t, .word) :: (p', .head) :: mark (.route false) (s :: ts) := by
      intro ts
      show mark (.text r) (t :: p' :: s :: ts) = _
      rw [mark_close hc (not_readOn hp' (.inr (by simp [hs]))), mark_route (by simp [hp']), show roleOf false p' = .head by simp [roleOf, hp'],
        show modeAfter p' = .route false by simp [modeAfter, hp']]
    have e1 : ∀ ts, mark (.route false) (s :: l :: ts) = (s, .note) :: (l, .head) :: mark (.text (py! "VFR")) ts := by
      intro ts
      rw [mark_route (by simp [hs]), show roleOf false s = .note by simp [roleOf, hs],
        show modeAfter s = .route false by simp [modeAfter, hs], mark_route (by simp [hl]),
        show roleOf false l = .head by simp [roleOf, hl],
        show modeAfter l = .text (py! "VFR") by simp [modeAfter, hl]]
    rw [e0] at he
    obtain ⟨mb', hmb', he'⟩ := split_next he hp (by simp); subst hmb'; clear he; revert mb'; intro mb he hsl
    cases mb with
    | nil =>
      cases he
      obtain ⟨s2, l2, rest, as2, rfl, hs2, hcase⟩ := run_slashed hw (hsl _ rfl hi ⟨s, l :: ts, by rw [mark_tokens], hs⟩)
      have e2 : mark (modeOf (.text r)) (t :: p :: s2 :: l2 :: rest) = (t, .word) :: (p, .head) :: mark (.route false) (s2 :: l2 :: rest) := by
        show mark (.text r) (t :: p :: s2 :: l2 :: rest) = _
        rw [mark_close hc (not_readOn hp (.inr (by simp [hs2]))), mark_route (by simp [hp]), show roleOf false p = .head by simp [roleOf, hp],
          show modeAfter p = .route false by simp [modeAfter, hp]]
      refine ⟨?_, e2⟩
      rcases hcase with ⟨g1, g2, g3⟩ | ⟨g1, g2⟩
      · exact ⟨_, .resumeIfr hc hi hb hp (fun _ => hn) hs2 g1 (fun _ => g2) g3⟩
      · exact ⟨_, .resumeVfr hc hi hb hp hs2 g1 g2⟩
    | cons x mb =>
      simp only [List.cons_append, List.cons.injEq] at he
      obtain ⟨rfl, he⟩ := he
      rw [e1] at he
      obtain ⟨mb', hmb', he'⟩ := split_next he hp (by simp); subst hmb'; clear he; revert mb'; intro mb he hsl
      obtain ⟨mb', hmb', he'⟩ := split_next he hp (by simp [hl]); subst hmb'; clear he; revert mb'; intro mb he hsl
      obtain ⟨⟨x, h1⟩, h2⟩ := ih he hsl.tail.tail.tail.tail
      refine ⟨⟨_, .resumeVfr hc hi hb hp' hs hl h1⟩, ?_⟩
      have h2' : mark (.text (py! "VFR")) (mb.map (·.1) ++ p :: w) = mb ++ (p, .head) :: mark (.route false) w := h2
      simp only [List.map_cons, List.cons_append]
      rw [e0, e1, h2']

/-- Another continuation behind a point of a whole field 15. -/
theorem sent_swap_free {ts : List Token} {as : List Act} (h : SentRun ts as) {before after : List (Token × Role)} {p : Token}
    (hr : roles ts = before ++ (p, .head) :: after) (hp : p.base = .POINT) (hn : posNums p = []) {w : List Token} {as' : List Act}
    (hw : Run (.point (isFixed p)) w as') (hs : Stands before after w) :
    (∃ as, SentRun (before.map (·.1) ++ p :: w) as) ∧ roles (before.map (·.1) ++ p :: w) = before ++ (p, .head) :: mark (.route false) w := by
  cases h with
  | @ifr t ts as hb hl hne h =>
    have e0 : ∀ l, roles (t :: l) = (t, .note) :: mark (.route true) l := fun l => by
      unfold roles; dsimp only; rw [if_neg (by simp [hb])]
    rw [e0] at hr
    obtain ⟨mb', hmb', hr'⟩ := split_next hr hp (by simp); subst hmb'; clear hr; revert mb'; intro mb hr hs
    obtain ⟨⟨x, h1⟩, h2⟩ := run_swap h hp hn hw hr hs.tail
    refine ⟨⟨_, .ifr hb hl (by simp) h1⟩, ?_⟩
    rw [List.map_cons, List.cons_append, e0]
    exact congrArg _ h2
  | @vfr t ts as hb h =>
    have e0 : ∀ l, roles (t :: l) = (t, .head) :: mark (.text (py! "VFR")) l := fun l => by
      unfold roles; dsimp only; rw [if_pos hb]
    rw [e0] at hr
    obtain ⟨mb', hmb', hr'⟩ := split_next hr hp (by simp [hb]); subst hmb'; clear hr; revert mb'; intro mb hr hs
    obtain ⟨⟨x, h1⟩, h2⟩ := run_swap h hp hn hw hr hs.tail
    refine ⟨⟨_, .vfr hb h1⟩, ?_⟩
    rw [List.map_cons, List.cons_append, e0]
    exact congrArg _ h2

/-- The same, if the slash stays or stays away. -/
theorem sent_swap {ts : List Token} {as : List Act} (h : SentRun ts as) {before after : List (Token × Role)} {p : Token}
    (hr : roles ts = before ++ (p, .head) :: after) (hp : p.base = .POINT) (hn : posNums p = []) {w : List Token} {as' : List Act}
    (hw : Run (.point (isFixed p)) w as') (hs : Slashed w ↔ Slashed (after.map (·.1))) :
    (∃ as, SentRun (before.map (·.1) ++ p :: w) as) ∧ roles (before.map (·.1) ++ p :: w) = before ++ (p, .head) :: mark (.route false) w :=
  sent_swap_free h hr hp hn hw fun _ _ _ => hs.2

/-! ### Remarks about a point, and a section under other rules -/

/-- The same tokens, all notes. -/
def notes (l : List Token) : List (Token × Role) := l.map fun t => (t, .note)

theorem mark_remarks {s : List Token} (h : Remarks s) (w : List Token) : mark (.route false) (s ++ w) = notes s ++ mark (.route false) w := by
  induction h with
  | none => rfl
  | @level s l rest hs hl h ih =>
    simp only [List.cons_append]
    rw [mark_route (by simp [hs]), show roleOf false s = .note by simp [roleOf, hs], show modeAfter s = .route false by simp [modeAfter, hs],
      mark_route (by simp [hl]), show roleOf false l = .note by simp [roleOf, hl], show modeAfter l = .route false by simp [modeAfter, hl], ih]
    rfl
  | @stay t s m ht hs hm =>
    simp only [List.cons_append, List.nil_append]
    rw [mark_route (by simp [ht]), show roleOf false t = .note by simp [roleOf, ht], show modeAfter t = .route false by simp [modeAfter, ht],
      mark_route (by simp [hs]), show roleOf false s = .note by simp [roleOf, hs], show modeAfter s = .route false by simp [modeAfter, hs],
      mark_route (by simp [hm]), show roleOf false m = .note by simp [roleOf, hm], show modeAfter m = .route false by simp [modeAfter, hm]]
    rfl

/-- Reading the remarks about a point. -/
theorem run_remarks {s : List Token} (hs : Remarks s) {f : Bool} {v : List Token} {as : List Act} (h : Run (.point f) (s ++ v) as) :
    ∃ q, (q = .point f ∨ q = .stay) ∧ (∃ as, Run q v as) ∧ ∀ w as, Run q w as → ∃ as, Run (.point f) (s ++ w) as := by
  induction hs generalizing as with
  | none => exact ⟨_, .inl rfl, ⟨_, h⟩, fun w as h => ⟨_, h⟩⟩
  | @level s l rest hs hl hrem ih =>
    simp only [List.cons_append] at h
    obtain ⟨s', l', rest', as', he, h1, h2⟩ := run_slashed h ⟨_, _, rfl, hs⟩
    cases he
    rcases h2 with ⟨_, h3, h4⟩ | ⟨h2, _⟩
    · obtain ⟨q, k1, k2, k3⟩ := ih h4
      refine ⟨q, k1, k2, fun w as hw => ?_⟩
      obtain ⟨as, hw⟩ := k3 w as hw
      exact ⟨_, .level hs hl (fun _ => h3) hw⟩
    · rw [hl] at h2; cases h2
  | @stay t s m ht hs hm =>
    simp only [List.cons_append, List.nil_append] at h ⊢
    generalize hq : Phase.point f = q at h
    cases h with
    | dct _ hb | route _ hb | climb _ hb | cruise _ hb | break_ _ hb | point _ hb | level hb | vfr hb => rw [ht] at hb; cases hb
    | sid | word | resume | resumeIfr | resumeVfr => cases hq
    | stay hq' hb _ _ h => exact ⟨.stay, .inr rfl, ⟨_, h⟩, fun w as hw => ⟨_, .stay hq' hb hs hm hw⟩⟩

/-- What can be read after one point or a stay can be read after another point. -/
theorem run_after {f f' : Bool} {q : Phase} (hq : q = .point f ∨ q = .stay) {v : List Token} {as : List Act} (h : Run q v as)
    (hv : ∀ t, v.head? = some t → t.base ≠ .SLASH ∧ (t.base = .ROUTE → f' = false)) : ∃ as, Run (.point f') v as := by
  have ok : ∀ {t : Token}, q.allows t = true → t.base ≠ .ROUTE → (Phase.point f').allows t = true := by
    intro t h hr
    rcases hq with rfl | rfl <;> simp_all [Phase.allows] <;> grind
  cases h with
  | stop => exact ⟨_, .stop _⟩
  | truncate hq' hb => exact ⟨_, .truncate (ok hq' (by simp [hb])) hb⟩
  | star hq' hb => exact ⟨_, .star (ok hq' (by rcases hb with hb | ⟨hb, _⟩ <;> simp [hb])) (hb.imp_right fun h => ⟨h.1, by simp⟩)⟩
  | sid => rcases hq with h | h <;> cases h
  | dct hq' hb h => exact ⟨_, .dct (ok hq' (by simp [hb])) hb h⟩
  | route hq' hb h =>
    have := (hv _ rfl).2 hb
    exact ⟨_, .route (by simp [Phase.allows, hb, this]) hb h⟩
  | point hq' hb hn h => exact ⟨_, .point (ok hq' (by simp [hb])) hb hn h⟩
  | climb hq' hb h => exact ⟨_, .climb (ok hq' (by simp [hb])) hb h⟩
  | cruise hq' hb h1 h2 h3 h4 h => exact ⟨_, .cruise (ok hq' (by simp [hb])) hb h1 h2 h3 h4 h⟩
  | stay hq' hb h1 h2 h => exact ⟨_, .stay (ok hq' (by simp [hb])) hb h1 h2 h⟩
  | break_ hq' hb h => exact ⟨_, .break_ (ok hq' (by simp [hb])) hb h⟩
  | level hb | vfr hb => exact absurd hb (hv _ rfl).1
  | word | resume | resumeIfr | resumeVfr => rcases hq with h | h <;> cases h

/-- Notes that say nothing about speed, level or stay. -/
def Idle (l : List (Token × Role)) : Prop := ∀ x ∈ l, x.2 = .note ∧ isChange x = false ∧ x.1.base ≠ .STAY_TIME

/-- Nothing, or a new element that is no SPEED/VFR. -/
def Fresh (l : List (Token × Role)) : Prop := l = [] ∨ ∃ m r, l = m :: r ∧ m.2.isElement = true ∧ ¬ (m.1.base = .SPEED_VFR ∧ m.2 = .head)

/-- What follows a point or a stay begins a new element, perhaps behind idle notes. -/
theorem run_anew {f : Bool} {q : Phase} (hq : q = .point f ∨ q = .stay) {v : List Token} {as : List Act} (h : Run q v as)
    (hv : ∀ t, v.head? = some t → t.base ≠ .SLASH ∧ t.base ≠ .STAY) :
    ∃ junk rest, mark (.route false) v = junk ++ rest ∧ Idle junk ∧ Fresh rest := by
  have hmo : modeOf q = .route false := by rcases hq with rfl | rfl <;> rfl
  have had : (decide (q = .adep)) = false := by rcases hq with rfl | rfl <;> rfl
  have one : ∀ {t : Token} {ts : List Token}, q.allows t = true → isCruise t ts = false → (roleOf false t).isElement = true → t.base ≠ .SPEED_VFR →
      ∃ junk rest, mark (.route false) (t :: ts) = junk ++ rest ∧ Idle junk ∧ Fresh rest := by
    intro t ts h1 h2 h3 h4
    refine ⟨[], (t, roleOf false t) :: mark (modeAfter t) ts, ?_, by simp [Idle], .inr ⟨_, _, rfl, h3, fun h => h4 h.1⟩⟩
    rw [← hmo, mark_plain h1 h2, had]; rfl
  cases h with
  | stop => exact ⟨[], [], by rw [mark_nil]; rfl, by simp [Idle], .inl rfl⟩
  | @truncate _ t hq' hb =>
    refine ⟨[(t, roleOf false t)], [], ?_, ?_, .inl rfl⟩
    · rw [mark_route (by simp [hb]), mark_nil, List.append_nil]
    · simp [Idle, roleOf, hb, isChange]
  | star hq' hb =>
    rcases hb with hb | ⟨hb, _⟩ <;>
      exact one hq' (not_cruise (by simp [hb])) (by simp [roleOf, hb, Role.isElement]) (by simp [hb])
  | sid | word | resume | resumeIfr | resumeVfr => rcases hq with h | h <;> cases h
  | dct hq' hb | route hq' hb | point hq' hb | break_ hq' hb =>
    exact one hq' (not_cruise (by simp [hb])) (by simp [roleOf, hb, Role.isElement]) (by simp [hb])
  | climb hq' hb h => exact one hq' (climb_next h) (by simp [roleOf, hb, Role.isElement]) (by simp [hb])
  | @cruise _ t s p s' l _ ts _ hq' hb h1 h2 h3 h4 h =>
    refine ⟨[(t, .note), (s, .note)], (p, .slot) :: (s', .note) :: (l, .note) :: mark (.route false) ts, ?_, ?_, .inr ⟨_, _, rfl, rfl, by simp⟩⟩
    · have := mark_cruise (q := q) (p := p) (ts := ts) hq' hb h1 h3 h4.base
      rw [hmo] at this; exact this
    · simp [Idle, hb, h1, isChange]
  | stay hq' hb => exact absurd hb (hv _ rfl).2
  | level hb | vfr hb => exact absurd hb (hv _ rfl).1

/-- The tokens of free text, all words. -/
def textOf (l : List Token) : List (Token × Role) := l.map fun t => (t, .word)

theorem run_textOf {r : Str} {words : List Token} (hw : ∀ w ∈ words, w.base ≠ .TOO_LONG ∧ ¬ closes w r) {w : List Token} {as : List Act}
    (h : Run (.text r) w as) :
    (∃ as, Run (.text r) (words ++ w) as) ∧ mark (.text r) (words ++ w) = textOf words ++ mark (.text r) w := by
  induction words with
  | nil => exact ⟨⟨_, h⟩, rfl⟩
  | cons x words ih =>
    obtain ⟨⟨as', h1⟩, h2⟩ := ih (fun w hw' => hw w (by simp [hw']))
    obtain ⟨hb, hc⟩ := hw x (by simp)
    have hc' : closes x r → readOn x (words ++ w) := fun h => absurd h hc
    refine ⟨⟨_, .word hb hc' h1⟩, ?_⟩
    rw [List.cons_append, mark_word hc', h2]; rfl

/-- Reading a section under other rules. -/
theorem run_section {brk close p : Token} {words level : List Token} (hs : Section brk words close p level) (hT : ∀ x ∈ p :: level, Typed x)
    (hc : close.base ≠ .TOO_LONG) {v : List Token} {as : List Act} (h : Run (.point (isFixed p)) v as) {q : Phase} (hq : q.allows brk = true) :
    (∃ as, Run q (brk :: words ++ close :: p :: level ++ v) as) ∧
      mark (.route false) (brk :: words ++ close :: p :: level ++ v) =
        (brk, .head) :: textOf words ++ (close, .word) :: (p, .head) :: notes level ++ mark (.route false) v := by
  have hn : posNums p = [] := (pos_iff (hT p (by simp))).1 hs.position
  have hp := hs.point
  have key : (∃ as, Run (.text (rulesOfBreak brk.sub)) (close :: p :: level ++ v) as) ∧
      mark (.text (rulesOfBreak brk.sub)) (close :: p :: level ++ v) = (close, .word) :: (p, .head) :: notes level ++ mark (.route false) v := by
    have mp : ∀ l, mark (.route false) (p :: l) = (p, .head) :: mark (.route false) l := fun l => by
      rw [mark_route (by simp [hp]), show roleOf false p = .head by simp [roleOf, hp], show modeAfter p = .route false by simp [modeAfter, hp]]
    rcases hs.level with ⟨rfl, hi⟩ | ⟨s, l, rfl, h1, h2, h3⟩
    · refine ⟨⟨_, .resume hs.stop hi hc hp (fun _ => hn) h⟩, ?_⟩
      show mark _ (close :: p :: v) = _
      rw [mark_close hs.stop (not_readOn hp (.inl hi)), mp]; rfl
    · have hk : (Act.level l).nums = [] := (levelOk_iff (hT l (by simp)) h2).1 h3
      have hrem : Remarks [s, l] := .level h1 h2 .none
      have mr := mark_remarks hrem v
      have hm : mark (.text (rulesOfBreak brk.sub)) (close :: p :: [s, l] ++ v) = (close, .word) :: (p, .head) :: notes [s, l] ++ mark (.route false) v := by
        show mark _ (close :: p :: s :: l :: v) = _
        rw [mark_close hs.stop (not_readOn hp (.inr (by simp [h1]))), mp]
        exact congrArg (fun x => (close, Role.word) :: (p, Role.head) :: x) mr
      refine ⟨?_, hm⟩
      by_cases hi : close.sub = .IFR
      · exact ⟨_, .resumeIfr hs.stop hi hc hp (fun _ => hn) h1 h2 (fun _ => hk) h⟩
      · exact ⟨_, .resume hs.stop hi hc hp (fun _ => hn) (.level h1 h2 (fun _ => hk) h)⟩
  obtain ⟨⟨as1, k1⟩, k2⟩ := key
  obtain ⟨⟨as2, k3⟩, k4⟩ := run_textOf hs.words k1
  have hb := hs.start
  have e : brk :: words ++ close :: p :: level ++ v = brk :: (words ++ (close :: p :: level ++ v)) := by simp
  rw [e]
  refine ⟨⟨_, .break_ hq hb k3⟩, ?_⟩
  rw [mark_route (by simp [hb]), show roleOf false brk = .head by simp [roleOf, hb],
    show modeAfter brk = .text (rulesOfBreak brk.sub) by simp [modeAfter, hb], k4, k2]
  simp

end F15
