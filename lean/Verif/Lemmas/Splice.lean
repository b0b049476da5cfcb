import Verif.Lemmas.Well
import Verif.Lemmas.Place
import Verif.Spec.Meaning
/-!
# Cutting and joining runs at a point
-/

namespace F15
open Spec

set_option linter.unusedSectionVars false

/-- Wherever `l` is cut before a point, the rest can be read on its own. -/
def Cuts (l : List (Token × Role)) : Prop := ∀ mb p after, l = mb ++ (p, .head) :: after → p.base = .POINT →
  (posNums p = [] ∨ Overlooked mb after) ∧ (∃ as, Run (.point (isFixed p)) (after.map (·.1)) as ∨ Overlooked mb after) ∧
  mark (.route false) (after.map (·.1)) = after

theorem over_cons {m : Token × Role} {b a : List (Token × Role)} (h : Overlooked b a) : Overlooked (m :: b) a := by
  obtain ⟨⟨b', w, rfl, hw⟩, h⟩ := h
  exact ⟨⟨m :: b', w, rfl, hw⟩, h⟩

theorem Cuts.nil : Cuts [] := by
  intro mb p after h
  cases mb <;> cases h

theorem Cuts.cons {m : Token × Role} {l : List (Token × Role)} (hm : ¬ (m.2 = .head ∧ m.1.base = .POINT)) (h : Cuts l) : Cuts (m :: l) := by
  intro mb p after he hp
  cases mb with
  | nil => cases he; exact absurd ⟨rfl, hp⟩ hm
  | cons x mb =>
    cases he
    obtain ⟨h1, ⟨as, h2⟩, h3⟩ := h mb p after rfl hp
    exact ⟨h1.imp_right over_cons, ⟨as, h2.imp_right over_cons⟩, h3⟩

theorem Cuts.point {p : Token} {ts : List Token} {as : List Act} (hn : posNums p = []) (h : Run (.point (isFixed p)) ts as)
    (hc : Cuts (mark (.route false) ts)) : Cuts ((p, .head) :: mark (.route false) ts) := by
  intro mb p' after he hp
  cases mb with
  | nil =>
    cases he
    rw [mark_tokens]
    exact ⟨.inl hn, ⟨as, .inl h⟩, rfl⟩
  | cons x mb =>
    simp only [List.cons_append, List.cons.injEq] at he
    obtain ⟨rfl, he⟩ := he
    obtain ⟨h1, ⟨as, h2⟩, h3⟩ := hc mb p' after he hp
    exact ⟨h1.imp_right over_cons, ⟨as, h2.imp_right over_cons⟩, h3⟩

theorem run_cuts {q : Phase} {ts : List Token} {as : List Act} (h : Run q ts as) : Cuts (mark (modeOf q) ts) := by
  induction h with
  | stop q => rw [mark_nil]; exact .nil
  | @truncate q t hq hb =>
    rw [mark_plain hq (not_cruise (by simp [hb])), mark_nil]
    exact .cons (by simp [hb]) .nil
  | @star q t hq hb =>
    rw [mark_plain hq (not_cruise (by rcases hb with hb | ⟨hb, _⟩ <;> simp [hb])), mark_nil]
    exact .cons (by rcases hb with hb | ⟨hb, h⟩ <;> simp [hb]) .nil
  | @sid t ts as hb h ih =>
    show Cuts (mark (.route true) (t :: ts))
    rw [mark_route (by rcases hb with hb | hb <;> simp [hb]),
      show modeAfter t = .route false by rcases hb with hb | hb <;> simp [modeAfter, hb]]
    exact .cons (by rcases hb with hb | hb <;> simp [hb]) ih
  | @dct q t ts as hq hb h ih | @route q t ts as hq hb h ih =>
    rw [mark_plain hq (not_cruise (by simp [hb])), show modeAfter t = .route false by simp [modeAfter, hb]]
    exact .cons (by simp [hb]) ih
  | @point q t ts as hq hb hn h ih =>
    rw [mark_plain hq (not_cruise (by simp [hb])), show roleOf (decide (q = .adep)) t = .head by simp [roleOf, hb],
      show modeAfter t = .route false by simp [modeAfter, hb]]
    exact .point (hn trivial) h ih
  | @climb q t ts as hq hb h ih =>
    rw [mark_plain hq (climb_next h), show modeAfter t = .route false by simp [modeAfter, hb]]
    exact .cons (by simp [hb]) ih
  | @cruise q t s p s' l a ts as hq hb hs hp hs' hl h ih =>
    rw [mark_cruise hq hb hs hs' hl.base]
    exact .cons (by simp) (.cons (by simp) (.cons (by simp) (.cons (by simp) (.cons (by simp) ih))))
  | @stay q t s m ts as hq hb hs hm h ih =>
    rw [mark_plain hq (not_cruise (by simp [hb])),
      show modeAfter t = .route false by simp [modeAfter, hb], mark_route (by simp [hs]),
      show modeAfter s = .route false by simp [modeAfter, hs], mark_route (by simp [hm]),
      show modeAfter m = .route false by simp [modeAfter, hm]]
    exact .cons (by simp [hb]) (.cons (by simp [hs]) (.cons (by simp [hm]) ih))
  | @break_ q t ts as hq hb h ih =>
    rw [mark_plain hq (not_cruise (by simp [hb])), show modeAfter t = .text (rulesOfBreak t.sub) by simp [modeAfter, hb]]
    exact .cons (by simp [hb]) ih
  | @level f s l ts as hs hb hl h ih =>
    show Cuts (mark (.route false) (s :: l :: ts))
    rw [mark_route (by simp [hs]),
      show modeAfter s = .route false by simp [modeAfter, hs], mark_route (by simp [hb]),
      show modeAfter l = .route false by simp [modeAfter, hb]]
    exact .cons (by simp [hs]) (.cons (by simp [hb]) ih)
  | @vfr f s l ts as hs hb h ih =>
    show Cuts (mark (.route false) (s :: l :: ts))
    rw [mark_route (by simp [hs]),
      show modeAfter s = .route false by simp [modeAfter, hs], mark_route (by simp [hb]),
      show modeAfter l = .text (py! "VFR") by simp [modeAfter, hb]]
    exact .cons (by simp [hs]) (.cons (by simp [hb]) ih)
  | @word r t ts as hb hc h ih =>
    show Cuts (mark (.text r) (t :: ts))
    rw [mark_word hc]
    exact .cons (by simp) ih
  | @resume r t p ts as hc hi hb hp hn h ih =>
    show Cuts (mark (.text r) (t :: p :: ts))
    rw [mark_close hc (not_readOn hp (.inl hi)), mark_route (by simp [hp]), show roleOf false p = .head by simp [roleOf, hp],
      show modeAfter p = .route false by simp [modeAfter, hp]]
    exact .cons (by simp) (.point (hn trivial) h ih)
  | @resumeIfr r t p s l ts as hc hi hb hp hn hs hl hk h ih =>
    show Cuts (mark (.text r) (t :: p :: s :: l :: ts))
    have h' : Run (.point (isFixed p)) (s :: l :: ts) _ := .level hs hl hk h
    rw [mark_close hc (not_readOn hp (.inr (by simp [hs]))), mark_route (by simp [hp]), show roleOf false p = .head by simp [roleOf, hp],
      show modeAfter p = .route false by simp [modeAfter, hp]]
    refine .cons (by simp) (.point (hn trivial) h' ?_)
    rw [mark_route (by simp [hs]),
      show modeAfter s = .route false by simp [modeAfter, hs], mark_route (by simp [hl]),
      show modeAfter l = .route false by simp [modeAfter, hl]]
    exact .cons (by simp [hs]) (.cons (by simp [hl]) ih)
  | @resumeVfr r t p s l ts as hc hi hb hp hs hl h ih =>
    show Cuts (mark (.text r) (t :: p :: s :: l :: ts))
    rw [mark_close hc (not_readOn hp (.inr (by simp [hs]))), mark_route (by simp [hp]), show roleOf false p = .head by simp [roleOf, hp],
      show modeAfter p = .route false by simp [modeAfter, hp]]
    have hc' : Cuts (mark (.route false) (s :: l :: ts)) := by
      rw [mark_route (by simp [hs]),
        show modeAfter s = .route false by simp [modeAfter, hs], mark_route (by simp [hl]),
        show modeAfter l = .text (py! "VFR") by simp [modeAfter, hl]]
      exact .cons (by simp [hs]) (.cons (by simp [hl]) ih)
    have hm : mark (.route false) (s :: l :: ts) = (s, .note) :: (l, .head) :: mark (.text (py! "VFR")) ts := by
      rw [mark_route (by simp [hs]),
        show modeAfter s = .route false by simp [modeAfter, hs], mark_route (by simp [hl]),
        show modeAfter l = .text (py! "VFR") by simp [modeAfter, hl], show roleOf false s = .note by simp [roleOf, hs],
        show roleOf false l = .head by simp [roleOf, hl]]
    intro mb p' after he hp'
    match mb, he with
    | [_], he =>
      cases he
      have ho : Overlooked [(t, Role.word)] (mark (.route false) (s :: l :: ts)) :=
        ⟨⟨[], t, rfl, hi⟩, _, _, _, hm, hs, hl⟩
      rw [mark_tokens]
      exact ⟨.inr ho, ⟨[], .inr ho⟩, rfl⟩
    | _ :: _ :: mb, he =>
      simp only [List.cons_append, List.cons.injEq] at he
      obtain ⟨rfl, rfl, he⟩ := he
      obtain ⟨h1, ⟨as, h2⟩, h3⟩ := hc' mb p' after he hp'
      exact ⟨h1.imp_right fun h => over_cons (over_cons h), ⟨as, h2.imp_right fun h => over_cons (over_cons h)⟩, h3⟩

/-- A whole field 15 cut before a point that is looked at. -/
theorem sent_cut {ts : List Token} {as : List Act} (h : SentRun ts as) {before after : List (Token × Role)} {p : Token}
    (hr : roles ts = before ++ (p, .head) :: after) (hp : p.base = .POINT) (ho : ¬ Overlooked before after) :
    posNums p = [] ∧ (∃ as, Run (.point (isFixed p)) (after.map (·.1)) as) ∧ mark (.route false) (after.map (·.1)) = after := by
  have hc : Cuts (roles ts) := by
    cases h with
    | @ifr t ts as hb hl hne h =>
      unfold roles; dsimp only; rw [if_neg (by simp [hb])]
      exact .cons (by simp) (run_cuts h)
    | @vfr t ts as hb h =>
      unfold roles; dsimp only; rw [if_pos hb]
      exact .cons (by simp [hb]) (run_cuts h)
  obtain ⟨h1, ⟨as, h2⟩, h3⟩ := hc before p after hr hp
  exact ⟨h1.resolve_right ho, ⟨as, h2.resolve_right ho⟩, h3⟩

/-- `l` ends in `p` as an element of its own. -/
def EndsIn (p : Token) (l : List (Token × Role)) : Prop := ∃ mb, l = mb ++ [(p, .head)]

theorem EndsIn.tail {p : Token} {m : Token × Role} {l : List (Token × Role)} (h : EndsIn p (m :: l)) (hl : l ≠ []) : EndsIn p l := by
  obtain ⟨mb, h⟩ := h
  cases mb with
  | nil => cases h; exact absurd rfl hl
  | cons x mb => cases h; exact ⟨mb, rfl⟩

theorem EndsIn.single {p : Token} {m : Token × Role} (h : EndsIn p [m]) : m = (p, .head) := by
  obtain ⟨mb, h⟩ := h
  cases mb with
  | nil => cases h; rfl
  | cons x mb => cases mb <;> cases h

theorem EndsIn.not_nil {p : Token} (h : EndsIn p []) : False := by
  obtain ⟨mb, h⟩ := h
  cases mb <;> cases h

/-- A step that is no point is not the end. -/
theorem EndsIn.next {p : Token} {m : Token × Role} {l : List (Token × Role)} (h : EndsIn p (m :: l)) (hp : p.base = .POINT)
    (hm : ¬ (m.2 = .head ∧ m.1.base = .POINT)) : EndsIn p l := by
  by_cases hl : l = []
  · subst hl
    have := h.single
    subst this
    exact absurd ⟨rfl, hp⟩ hm
  · exact h.tail hl

theorem readOn_more {t : Token} {ts v : List Token} (h : ts ≠ []) (h1 : ts.length ≠ 1) : readOn t (ts ++ v) ↔ readOn t ts := by
  match ts with
  | [] => exact absurd rfl h
  | [_] => exact absurd rfl h1
  | p :: s :: ts => simp [readOn]

theorem run_join {q : Phase} {ts : List Token} {as : List Act} (h : Run q ts as) {p : Token} (hp : p.base = .POINT) {v : List Token}
    {as' : List Act} (hv : Run (.point (isFixed p)) v as') (he : EndsIn p (mark (modeOf q) ts)) :
    (∃ as, Run q (ts ++ v) as) ∧ mark (modeOf q) (ts ++ v) = mark (modeOf q) ts ++ mark (.route false) v := by
  induction h with
  | stop q => rw [mark_nil] at he; exact he.not_nil.elim
  | @truncate q t hq hb =>
    rw [mark_plain hq (not_cruise (by simp [hb])), mark_nil] at he
    exact (he.next hp (by simp [hb])).not_nil.elim
  | @star q t hq hb =>
    rw [mark_plain hq (not_cruise (by rcases hb with hb | ⟨hb, _⟩ <;> simp [hb])), mark_nil] at he
    exact (he.next hp (by rcases hb with hb | ⟨hb, h⟩ <;> simp [hb])).not_nil.elim
  | @sid t ts as hb h ih =>
    have hc : t.base ≠ .C := by rcases hb with hb | hb <;> simp [hb]
    have hma : modeAfter t = .route false := by rcases hb with hb | hb <;> simp [modeAfter, hb]
    have e0 : ∀ l, mark (modeOf .adep) (t :: l) = (t, roleOf true t) :: mark (.route false) l := fun l => by
      show mark (.route true) (t :: l) = _
      rw [mark_route hc, hma]
    rw [e0] at he
    rw [List.cons_append, e0, e0]
    obtain ⟨⟨x, h1⟩, h2⟩ := ih (he.next hp (by rcases hb with hb | hb <;> simp [hb]))
    exact ⟨⟨_, .sid hb h1⟩, congrArg _ h2⟩
  | @dct q t ts as hq hb h ih =>
    have e0 : ∀ l, mark (modeOf q) (t :: l) = (t, roleOf (decide (q = .adep)) t) :: mark (.route false) l := fun l => by
      rw [mark_plain hq (not_cruise (by simp [hb])), show modeAfter t = .route false by simp [modeAfter, hb]]
    rw [e0] at he
    rw [List.cons_append, e0, e0]
    obtain ⟨⟨x, h1⟩, h2⟩ := ih (he.next hp (by simp [hb]))
    exact ⟨⟨_, .dct hq hb h1⟩, congrArg _ h2⟩
  | @route q t ts as hq hb h ih =>
    have e0 : ∀ l, mark (modeOf q) (t :: l) = (t, roleOf (decide (q = .adep)) t) :: mark (.route false) l := fun l => by
      rw [mark_plain hq (not_cruise (by simp [hb])), show modeAfter t = .route false by simp [modeAfter, hb]]
    rw [e0] at he
    rw [List.cons_append, e0, e0]
    obtain ⟨⟨x, h1⟩, h2⟩ := ih (he.next hp (by simp [hb]))
    exact ⟨⟨_, .route hq hb h1⟩, congrArg _ h2⟩
  | @point q t ts as hq hb hn h ih =>
    have e0 : ∀ l, mark (modeOf q) (t :: l) = (t, .head) :: mark (.route false) l := fun l => by
      rw [mark_plain hq (not_cruise (by simp [hb])), show modeAfter t = .route false by simp [modeAfter, hb],
        show roleOf (decide (q = .adep)) t = .head by simp [roleOf, hb]]
    rw [e0] at he
    rw [List.cons_append, e0, e0]
    cases ts with
    | nil =>
      rw [mark_nil] at *
      have := he.single
      cases this
      exact ⟨⟨_, .point hq hb hn hv⟩, rfl⟩
    | cons t' ts' =>
      obtain ⟨⟨x, h1⟩, h2⟩ := ih (he.tail (by intro h; have := congrArg (List.map (·.1)) h; rw [mark_tokens] at this; cases this))
      exact ⟨⟨_, .point hq hb hn h1⟩, congrArg _ h2⟩
  | @climb q t ts as hq hb h ih =>
    have hma : modeAfter t = .route false := by simp [modeAfter, hb]
    rw [mark_plain hq (climb_next h), hma] at he
    rw [mark_plain hq (climb_next h), hma]
    obtain ⟨⟨x, h1⟩, h2⟩ := ih (he.next hp (by simp [hb]))
    rw [List.cons_append, mark_plain hq (climb_next h1), hma]
    exact ⟨⟨_, .climb hq hb h1⟩, congrArg _ h2⟩
  | @cruise q t s p' s' l a ts as hq hb hs hp' hs' hl h ih =>
    rw [mark_cruise hq hb hs hs' hl.base] at he
    obtain ⟨⟨x, h1⟩, h2⟩ := ih (((((he.next hp (by simp)).next hp (by simp)).next hp (by simp)).next hp (by simp)).next hp (by simp))
    refine ⟨⟨_, .cruise hq hb hs hp' hs' hl h1⟩, ?_⟩
    rw [mark_cruise hq hb hs hs' hl.base]
    have h2' : mark (.route false) (ts ++ v) = mark (.route false) ts ++ mark (.route false) v := h2
    simp only [List.cons_append]
    rw [mark_cruise hq hb hs hs' hl.base, h2']
  | @stay q t s m ts as hq hb hs hm h ih =>
    have e0 : ∀ ts, mark (modeOf q) (t :: s :: m :: ts) = (t, roleOf (decide (q = .adep)) t) :: (s, roleOf false s) :: (m, roleOf false m) ::
        mark (.route false) ts := by
      intro ts
      rw [mark_plain hq (not_cruise (by simp [hb])),
        show modeAfter t = .route false by simp [modeAfter, hb], mark_route (by simp [hs]),
        show modeAfter s = .route false by simp [modeAfter, hs], mark_route (by simp [hm]),
        show modeAfter m = .route false by simp [modeAfter, hm]]
    rw [e0] at he
    obtain ⟨⟨x, h1⟩, h2⟩ := ih (((he.next hp (by simp [hb])).next hp (by simp [hs])).next hp (by simp [hm]))
    refine ⟨⟨_, .stay hq hb hs hm h1⟩, ?_⟩
    have h2' : mark (.route false) (ts ++ v) = mark (.route false) ts ++ mark (.route false) v := h2
    simp only [List.cons_append]
    rw [e0, e0, h2']; rfl
  | @break_ q t ts as hq hb h ih =>
    have e0 : ∀ l, mark (modeOf q) (t :: l) = (t, roleOf (decide (q = .adep)) t) :: mark (.text (rulesOfBreak t.sub)) l := fun l => by
      rw [mark_plain hq (not_cruise (by simp [hb])), show modeAfter t = .text (rulesOfBreak t.sub) by simp [modeAfter, hb]]
    rw [e0] at he
    rw [List.cons_append, e0, e0]
    obtain ⟨⟨x, h1⟩, h2⟩ := ih (he.next hp (by simp [hb]))
    exact ⟨⟨_, .break_ hq hb h1⟩, congrArg _ h2⟩
  | @level f s l ts as hs hb hl h ih =>
    have e0 : ∀ ts, mark (modeOf (.point f)) (s :: l :: ts) = (s, roleOf false s) :: (l, roleOf false l) :: mark (.route false) ts := by
      intro ts
      show mark (.route false) (s :: l :: ts) = _
      rw [mark_route (by simp [hs]),
        show modeAfter s = .route false by simp [modeAfter, hs], mark_route (by simp [hb]),
        show modeAfter l = .route false by simp [modeAfter, hb]]
    rw [e0] at he
    obtain ⟨⟨x, h1⟩, h2⟩ := ih ((he.next hp (by simp [hs])).next hp (by simp [hb]))
    refine ⟨⟨_, .level hs hb hl h1⟩, ?_⟩
    have h2' : mark (.route false) (ts ++ v) = mark (.route false) ts ++ mark (.route false) v := h2
    simp only [List.cons_append]
    rw [e0, e0, h2']; rfl
  | @vfr f s l ts as hs hb h ih =>
    have e0 : ∀ ts, mark (modeOf (.point f)) (s :: l :: ts) = (s, roleOf false s) :: (l, roleOf false l) :: mark (.text (py! "VFR")) ts := by
      intro ts
      show mark (.route false) (s :: l :: ts) = _
      rw [mark_route (by simp [hs]),
        show modeAfter s = .route false by simp [modeAfter, hs], mark_route (by simp [hb]),
        show modeAfter l = .text (py! "VFR") by simp [modeAfter, hb]]
    rw [e0] at he
    obtain ⟨⟨x, h1⟩, h2⟩ := ih ((he.next hp (by simp [hs])).next hp (by simp [hb]))
    refine ⟨⟨_, .vfr hs hb h1⟩, ?_⟩
    have h2' : mark (.text (py! "VFR")) (ts ++ v) = mark (.text (py! "VFR")) ts ++ mark (.route false) v := h2
    simp only [List.cons_append]
    rw [e0, e0, h2']; rfl
  | @word r t ts as hb hc h ih =>
    have he' : EndsIn p (mark (.text r) ts) := by
      have he0 : EndsIn p (mark (.text r) (t :: ts)) := he
      rw [mark_word hc] at he0
      exact he0.next hp (by simp)
    have hlen : ts ≠ [] ∧ ts.length ≠ 1 := by
      match ts, he' with
      | [], he' => rw [mark_nil] at he'; exact he'.not_nil.elim
      | [x], he' =>
        rw [mark, mark_nil] at he'
        have := he'.single
        cases this
      | _ :: _ :: _, _ => simp
    obtain ⟨⟨x, h1⟩, h2⟩ := ih he'
    have hc' : closes t r → readOn t (ts ++ v) := fun h => (readOn_more hlen.1 hlen.2).2 (hc h)
    refine ⟨⟨_, .word hb hc' h1⟩, ?_⟩
    show mark (.text r) (t :: (ts ++ v)) = mark (.text r) (t :: ts) ++ _
    rw [mark_word hc', mark_word hc]
    exact congrArg _ h2
  | @resume r t p' ts as hc hi hb hp' hn h ih =>
    have e0 : ∀ ts, mark (modeOf (.text r)) (t :: p' :: ts) = (t, .word) :: (p', .head) :: mark (.route false) ts := by
      intro ts
      show mark (.text r) (t :: p' :: ts) = _
      rw [mark_close hc (not_readOn hp' (.inl hi)), mark_route (by simp [hp']), show roleOf false p' = .head by simp [roleOf, hp'],
        show modeAfter p' = .route false by simp [modeAfter, hp']]
    rw [e0] at he
    simp only [List.cons_append]
    rw [e0, e0]
    have he' := he.next hp (by simp)
    cases ts with
    | nil =>
      rw [mark_nil] at *
      have := he'.single
      cases this
      exact ⟨⟨_, .resume hc hi hb hp' hn hv⟩, rfl⟩
    | cons t' ts' =>
      obtain ⟨⟨x, h1⟩, h2⟩ := ih (he'.tail (by intro h; have := congrArg (List.map (·.1)) h; rw [mark_tokens] at this; cases this))
      refine ⟨⟨_, .resume hc hi hb hp' hn h1⟩, ?_⟩
      have h2' : mark (.route false) (t' :: ts' ++ v) = mark (.route false) (t' :: ts') ++ mark (.route false) v := h2
      rw [h2']; rfl
  | @resumeIfr r t p' s l ts as hc hi hb hp' hn hs hl hk h ih =>
    have e0 : ∀ ts, mark (modeOf (.text r)) (t :: p' :: s :: l :: ts) =
        (t, .word) :: (p', .head) :: (s, .note) :: (l, .note) :: mark (.route false) ts := by
      intro ts
      show mark (.text r) (t :: p' :: s :: l :: ts) = _
      rw [mark_close hc (not_readOn hp' (.inr (by simp [hs]))), mark_route (by simp [hp']), show roleOf false p' = .head by simp [roleOf, hp'],
        show modeAfter p' = .route false by simp [modeAfter, hp'], mark_route (by simp [hs]),
        show roleOf false s = .note by simp [roleOf, hs],
        show modeAfter s = .route false by simp [modeAfter, hs], mark_route (by simp [hl]),
        show roleOf false l = .note by simp [roleOf, hl],
        show modeAfter l = .route false by simp [modeAfter, hl]]
    rw [e0] at he
    have he' := (((he.next hp (by simp)).tail (by simp)).next hp (by simp)).next hp (by simp)
    obtain ⟨⟨x, h1⟩, h2⟩ := ih he'
    have h2' : mark (.route false) (ts ++ v) = mark (.route false) ts ++ mark (.route false) v := h2
    simp only [List.cons_append]
    rw [e0, e0, h2']
    exact ⟨⟨_, .resumeIfr hc hi hb hp' hn hs hl hk h1⟩, rfl⟩
  | @resumeVfr r t p' s l ts as hc hi hb hp' hs hl h ih =>
    have e0 : ∀ ts, mark (modeOf (.text r)) (t :: p' :: s :: l :: ts) =
        (t, .word) :: (p', .head) :: (s, .note) :: (l, .head) :: mark (.text (py! "VFR")) ts := by
      intro ts
      show mark (.text r) (t :: p' :: s :: l :: ts) = _
      rw [mark_close hc (not_readOn hp' (.inr (by simp [hs]))), mark_route (by simp [hp']), show roleOf false p' = .head by simp [roleOf, hp'],
        show modeAfter p' = .route false by simp [modeAfter, hp'], mark_route (by simp [hs]),
        show roleOf false s = .note by simp [roleOf, hs],
        show modeAfter s = .route false by simp [modeAfter, hs], mark_route (by simp [hl]),
        show roleOf false l = .head by simp [roleOf, hl],
        show modeAfter l = .text (py! "VFR") by simp [modeAfter, hl]]
    rw [e0] at he
    have he' := (((he.next hp (by simp)).tail (by simp)).next hp (by simp)).next hp (by simp [hl])
    obtain ⟨⟨x, h1⟩, h2⟩ := ih he'
    have h2' : mark (.text (py! "VFR")) (ts ++ v) = mark (.text (py! "VFR")) ts ++ mark (.route false) v := h2
    simp only [List.cons_append]
    rw [e0, e0, h2']
    exact ⟨⟨_, .resumeVfr hc hi hb hp' hs hl h1⟩, rfl⟩

/-- Two field 15s joined at a point. -/
theorem sent_join {ts : List Token} {as : List Act} (h : SentRun ts as) {p : Token} (hp : p.base = .POINT) {v : List Token}
    {as' : List Act} (hv : Run (.point (isFixed p)) v as') (he : EndsIn p (roles ts)) :
    (∃ as, SentRun (ts ++ v) as) ∧ roles (ts ++ v) = roles ts ++ mark (.route false) v := by
  cases h with
  | @ifr t ts as hb hl hne h =>
    have e0 : ∀ l, roles (t :: l) = (t, .note) :: mark (.route true) l := fun l => by
      unfold roles; dsimp only; rw [if_neg (by simp [hb])]
    rw [e0] at he
    obtain ⟨⟨x, h1⟩, h2⟩ := run_join h hp hv (he.next hp (by simp))
    refine ⟨⟨_, .ifr hb hl (by simp [hne]) h1⟩, ?_⟩
    rw [List.cons_append, e0, e0]
    exact congrArg _ h2
  | @vfr t ts as hb h =>
    have e0 : ∀ l, roles (t :: l) = (t, .head) :: mark (.text (py! "VFR")) l := fun l => by
      unfold roles; dsimp only; rw [if_pos hb]
    rw [e0] at he
    obtain ⟨⟨x, h1⟩, h2⟩ := run_join h hp hv (he.next hp (by simp [hb]))
    refine ⟨⟨_, .vfr hb h1⟩, ?_⟩
    rw [List.cons_append, e0, e0]
    exact congrArg _ h2

/-- The roles do not end in the word IFR and a point. -/
def NoIfrEnd (l : List (Token × Role)) : Prop := ∀ b w p, l = b ++ [(w, .word), (p, .head)] → w.sub ≠ .IFR

theorem NoIfrEnd.nil : NoIfrEnd [] := by
  intro b w p h; cases b <;> cases h

theorem NoIfrEnd.cons {m : Token × Role} {l : List (Token × Role)} (h : NoIfrEnd l) (hm : m.2 = .word → m.1.sub = .IFR → ∀ p, l ≠ [(p, .head)]) :
    NoIfrEnd (m :: l) := by
  intro b w p he hw
  cases b with
  | nil => cases he; exact hm rfl hw p rfl
  | cons x b => cases he; exact h b w p rfl hw

theorem run_noIfr {q : Phase} {ts : List Token} {as : List Act} (h : Run q ts as) : NoIfrEnd (mark (modeOf q) ts) := by
  have nw : ∀ {f : Bool} {t : Token}, roleOf f t ≠ .word := by
    intro f t
    cases hb : t.base <;> simp [roleOf, hb]
    cases f <;> simp
  have rt : ∀ {f : Bool} {t : Token} {l}, NoIfrEnd l → NoIfrEnd ((t, roleOf f t) :: l) := fun h => h.cons fun h => absurd h nw
  have no : ∀ {o : Role} {t : Token} {l}, o ≠ .word → NoIfrEnd l → NoIfrEnd ((t, o) :: l) := fun hn h => h.cons fun h => absurd h hn
  induction h with
  | stop q => rw [mark_nil]; exact .nil
  | @truncate q t hq hb =>
    rw [mark_plain hq (not_cruise (by simp [hb])), mark_nil]
    exact rt .nil
  | @star q t hq hb =>
    rw [mark_plain hq (not_cruise (by rcases hb with hb | ⟨hb, _⟩ <;> simp [hb])), mark_nil]
    exact rt .nil
  | @sid t ts as hb h ih =>
    show NoIfrEnd (mark (.route true) (t :: ts))
    rw [mark_route (by rcases hb with hb | hb <;> simp [hb]),
      show modeAfter t = .route false by rcases hb with hb | hb <;> simp [modeAfter, hb]]
    exact rt ih
  | @dct q t ts as hq hb h ih | @route q t ts as hq hb h ih | @point q t ts as hq hb _ h ih =>
    rw [mark_plain hq (not_cruise (by simp [hb])), show modeAfter t = .route false by simp [modeAfter, hb]]
    exact rt ih
  | @climb q t ts as hq hb h ih =>
    rw [mark_plain hq (climb_next h), show modeAfter t = .route false by simp [modeAfter, hb]]
    exact rt ih
  | @cruise q t s p s' l a ts as hq hb hs hp hs' hl h ih =>
    rw [mark_cruise hq hb hs hs' hl.base]
    exact no (by simp) (no (by simp) (no (by simp) (no (by simp) (no (by simp) ih))))
  | @stay q t s m ts as hq hb hs hm h ih =>
    rw [mark_plain hq (not_cruise (by simp [hb])),
      show modeAfter t = .route false by simp [modeAfter, hb], mark_route (by simp [hs]),
      show modeAfter s = .route false by simp [modeAfter, hs], mark_route (by simp [hm]),
      show modeAfter m = .route false by simp [modeAfter, hm]]
    exact rt (rt (rt ih))
  | @break_ q t ts as hq hb h ih =>
    rw [mark_plain hq (not_cruise (by simp [hb])), show modeAfter t = .text (rulesOfBreak t.sub) by simp [modeAfter, hb]]
    exact rt ih
  | @level f s l ts as hs hb hl h ih =>
    show NoIfrEnd (mark (.route false) (s :: l :: ts))
    rw [mark_route (by simp [hs]),
      show modeAfter s = .route false by simp [modeAfter, hs], mark_route (by simp [hb]),
      show modeAfter l = .route false by simp [modeAfter, hb]]
    exact rt (rt ih)
  | @vfr f s l ts as hs hb h ih =>
    show NoIfrEnd (mark (.route false) (s :: l :: ts))
    rw [mark_route (by simp [hs]),
      show modeAfter s = .route false by simp [modeAfter, hs], mark_route (by simp [hb]),
      show modeAfter l = .text (py! "VFR") by simp [modeAfter, hb]]
    exact rt (rt ih)
  | @word r t ts as hb hc h ih =>
    show NoIfrEnd (mark (.text r) (t :: ts))
    rw [mark_word hc]
    refine NoIfrEnd.cons ih fun _ _ p he => ?_
    cases ts with
    | nil => rw [mark_nil] at he; cases he
    | cons x ts => rw [mark] at he; cases he
  | @resume r t p ts as hc hi hb hp hn h ih =>
    show NoIfrEnd (mark (.text r) (t :: p :: ts))
    rw [mark_close hc (not_readOn hp (.inl hi)), mark_route (by simp [hp]),
      show modeAfter p = .route false by simp [modeAfter, hp]]
    exact (rt ih).cons fun _ h => absurd h hi
  | @resumeIfr r t p s l ts as hc hi hb hp hn hs hl hk h ih =>
    show NoIfrEnd (mark (.text r) (t :: p :: s :: l :: ts))
    rw [mark_close hc (not_readOn hp (.inr (by simp [hs]))), mark_route (by simp [hp]),
      show modeAfter p = .route false by simp [modeAfter, hp], mark_route (by simp [hs]),
      show modeAfter s = .route false by simp [modeAfter, hs], mark_route (by simp [hl]),
      show modeAfter l = .route false by simp [modeAfter, hl]]
    exact (rt (rt (rt ih))).cons fun _ _ p h => by simp at h
  | @resumeVfr r t p s l ts as hc hi hb hp hs hl h ih =>
    show NoIfrEnd (mark (.text r) (t :: p :: s :: l :: ts))
    rw [mark_close hc (not_readOn hp (.inr (by simp [hs]))), mark_route (by simp [hp]),
      show modeAfter p = .route false by simp [modeAfter, hp], mark_route (by simp [hs]),
      show modeAfter s = .route false by simp [modeAfter, hs], mark_route (by simp [hl]),
      show modeAfter l = .text (py! "VFR") by simp [modeAfter, hl]]
    exact (rt (rt (rt ih))).cons fun _ _ p h => by simp at h

theorem sent_noIfr {ts : List Token} {as : List Act} (h : SentRun ts as) : NoIfrEnd (roles ts) := by
  cases h with
  | @ifr t ts as hb hl hne h =>
    unfold roles; dsimp only; rw [if_neg (by simp [hb])]
    exact (run_noIfr h).cons fun h => by cases h
  | @vfr t ts as hb h =>
    unfold roles; dsimp only; rw [if_pos hb]
    exact (run_noIfr h).cons fun h => by cases h

end F15
