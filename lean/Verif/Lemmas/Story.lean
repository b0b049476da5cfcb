import Verif.Lemmas.Sentence
import Verif.Spec.Story
/-!
# What an accepted run records
-/

namespace F15
open Spec

set_option linter.unusedSectionVars false
variable {F : Type} [PyFloat F]

/-- Forget the position. -/
def unplace (r : Record F) : Record F :=
  { r with latitude := fzero, longitude := fzero, bearing := fzero, distance := fzero, latLongValid := false }

theorem unplace_az (l : List (Record F)) : (azimuthList l).map unplace = l.map unplace := by
  unfold azimuthList
  repeat' split
  all_goals rfl

theorem unplace_mapHead (f : Record F → Record F) (hf : ∀ r, unplace (f r) = unplace r) (l : List (Record F)) :
    (mapHead f l).map unplace = l.map unplace := by
  cases l with
  | nil => rfl
  | cons r l => simp [mapHead, hf]

theorem unplace_pos (t : Token) (l : List (Record F)) : (posRecs t l).map unplace = l.map unplace := by
  have h1 : ∀ a b : F, ∀ r : Record F, unplace (setPos a b r) = unplace r := fun _ _ _ => rfl
  have h2 : ∀ s, ∀ r : Record F, unplace (project s r) = unplace r := fun _ _ => rfl
  unfold posRecs
  split <;> simp only [unplace_az, unplace_mapHead _ (h1 _ _), unplace_mapHead _ (h2 _)]

/-- The newest element, stripped, after reading one more token. -/
def stepRec (r : Record F) (m : Token × Role) : Record F :=
  match m.2 with
  | .slot => fresh r m.1
  | .sid => asSid m.1.text (fresh r m.1)
  | .star => asStar m.1.text (fresh r m.1)
  | .word => r.appendBreakText m.1.text
  | .head =>
    match m.1.base with
    | .POINT | .ROUTE => toIfr (fresh r m.1)
    | .BREAK_START => brkRules m.1.sub (fresh r m.1)
    | .SPEED_VFR => (Act.vfr m.1).newRec r
    | _ => fresh r m.1
  | .note =>
    match m.1.base with
    | .SPEED_ALTITUDE => (Act.level m.1).tweak r
    | .SPEED_ALTITUDE_ALTITUDE => (Act.levels m.1).tweak r
    | .SPEED_ALTITUDE_PLUS => (Act.plus m.1).tweak r
    | .STAY_TIME => setStay m.1.text r
    | _ => r

/-- Take speed and level from the element that follows. -/
def settle (r v : Record F) : Record F :=
  { r with speed := v.speed, speedSi := v.speedSi, altitude := v.altitude, altitudeSi := v.altitudeSi }

/-- The element that is complete when the next one starts. -/
def closeRec (r : Record F) (m : Token × Role) : Record F :=
  if m.1.base = .SPEED_VFR ∧ m.2 = .head then settle r (stepRec r m) else r

/-- The elements, stripped, from the current one on. -/
def build (r : Record F) : List (Token × Role) → List (Record F)
  | [] => [r]
  | m :: l => if m.2.isElement then closeRec r m :: build (stepRec r m) l else build (stepRec r m) l

/-- Perform actions on the list of elements. -/
def runsL (as : List Act) (l : List (Record F)) : List (Record F) := as.foldl (fun l a => a.recs l) l

theorem runs_recs (as : List Act) (e : Ers F) : (runs as e).recs = runsL as e.recs := by
  induction as generalizing e with
  | nil => rfl
  | cons a as ih => rw [runs_cons, ih]; rfl

/-- A step of the reader is a step of the parser. -/
def Steps (a : Act) (m : Token × Role) : Prop := ∀ (F : Type) [PyFloat F] (r : Record F) (rs : List (Record F)),
  ∃ r' rs', a.recs (r :: rs) = r' :: rs' ∧ unplace r' = stepRec (unplace r) m ∧
    rs'.map unplace = if m.2.isElement then closeRec (unplace r) m :: rs.map unplace else rs.map unplace

/-- The reader's mode after a phase. -/
def modeOf : Phase → Mode
  | .adep => .route true
  | .text r => .text r
  | _ => .route false

theorem build_step {r : Record F} {rs : List (Record F)} {a : Act} {m : Token × Role} (h : Steps a m) {as : List Act}
    {l : List (Token × Role)}
    (ih : ∀ (r : Record F) rs, (runsL as (r :: rs)).map unplace = (build (unplace r) l).reverse ++ rs.map unplace) :
    (runsL (a :: as) (r :: rs)).map unplace = (build (unplace r) (m :: l)).reverse ++ rs.map unplace := by
  obtain ⟨r', rs', h1, h2, h3⟩ := h F r rs
  show (runsL as (a.recs (r :: rs))).map unplace = _
  rw [h1, ih, h2, h3]
  conv => rhs; unfold build
  split <;> simp

theorem build_skip {r : Record F} {rs : List (Record F)} {m : Token × Role} (h : stepRec (unplace r) m = unplace r)
    (he : m.2.isElement = false) {as : List Act} {l : List (Token × Role)}
    (ih : (runsL as (r :: rs)).map unplace = (build (unplace r) l).reverse ++ rs.map unplace) :
    (runsL as (r :: rs)).map unplace = (build (unplace r) (m :: l)).reverse ++ rs.map unplace := by
  rw [ih]
  conv => rhs; unfold build
  simp [he, h]

theorem steps_pos {t : Token} {o : Role} (m : Token × Role) (hm : m = (t, o)) (he : m.2.isElement = true) (hv : ¬ (m.1.base = .SPEED_VFR ∧ m.2 = .head))
    (f : ∀ (F : Type) [PyFloat F], Record F → Record F) (hf : ∀ (F : Type) [PyFloat F] (r : Record F), f F (unplace r) = unplace (f F r))
    (hs : ∀ (F : Type) [PyFloat F] (r : Record F), stepRec (unplace r) m = f F (fresh (unplace r) t))
    (a : Act) (ha : ∀ (F : Type) [PyFloat F] (r : Record F) rs, (a.recs (r :: rs)).map unplace = (f F (fresh r t) :: r :: rs).map unplace)
    : Steps a m := by
  intro F _ r rs
  have h1 := ha F r rs
  cases h2 : a.recs (r :: rs) with
  | nil => rw [h2] at h1; cases h1
  | cons r' rs' =>
    rw [h2] at h1
    simp only [List.map_cons, List.cons.injEq] at h1
    refine ⟨r', rs', rfl, ?_, ?_⟩
    · rw [h1.1, hs, ← hf]; rfl
    · rw [if_pos he, h1.2]
      unfold closeRec
      rw [if_neg hv]

set_option hygiene false in
macro "steps_simple" f:term : tactic => `(tactic| (
  refine steps_pos (t := t) _ rfl (by rfl) (by simp [*]) (fun F _ => $f) (fun F _ r => ?_) (fun F _ r => ?_) _ (fun F _ r rs => ?_)
  · first | rfl | (unfold brkRules; split <;> rfl)
  · simp [stepRec, *]
  · first | rfl | (simp only [Act.recs, unplace_pos]; rfl)))

theorem steps_point {t : Token} (hb : t.base = .POINT) : Steps (.point t) (t, .head) := by steps_simple toIfr
theorem steps_vToI {t : Token} (hb : t.base = .POINT) : Steps (.vToI t) (t, .head) := by
  refine steps_pos (t := t) _ rfl (by rfl) (by simp [*]) (fun F _ => toIfr) (fun F _ r => rfl) (fun F _ r => ?_) _ (fun F _ r rs => ?_)
  · simp [stepRec, *]
  · show (mapHead toIfr (posRecs t (fresh r t :: r :: rs))).map unplace = _
    have := unplace_pos t (fresh r t :: r :: rs)
    cases h : posRecs t (fresh r t :: r :: rs) with
    | nil => rw [h] at this; cases this
    | cons x l =>
      rw [h] at this
      simp only [List.map_cons, List.cons.injEq] at this
      simp only [mapHead, List.map_cons, this.2]
      have h2 : ∀ x : Record F, unplace (toIfr x) = toIfr (unplace x) := fun _ => rfl
      rw [h2, this.1, h2]
theorem steps_vToIToV {t : Token} (hb : t.base = .POINT) : Steps (.vToIToV t) (t, .head) := by steps_simple toIfr
theorem steps_route {t : Token} (hb : t.base = .ROUTE) : Steps (.route t) (t, .head) := by steps_simple toIfr
theorem steps_dct {t : Token} (hb : t.base = .DCT) : Steps (.plain t) (t, .head) := by steps_simple id
theorem steps_climb {t : Token} (hb : t.base = .C) : Steps (.plain t) (t, .head) := by steps_simple id
theorem steps_brk {t : Token} (hb : t.base = .BREAK_START) : Steps (.brk t) (t, .head) := by steps_simple brkRules t.sub
theorem steps_sid {t : Token} : Steps (.sid t) (t, .sid) := by steps_simple asSid t.text
theorem steps_star {t : Token} : Steps (.star t) (t, .star) := by steps_simple asStar t.text
theorem steps_slot {t : Token} : Steps (.ccPoint t) (t, .slot) := by steps_simple id

theorem steps_vfr {t : Token} (hb : t.base = .SPEED_VFR) : Steps (.vfr t) (t, .head) := by
  intro F _ r rs
  have hs : ∀ r : Record F, stepRec r (t, .head) = (Act.vfr t).newRec r := fun r => by simp [stepRec, hb]
  refine ⟨(Act.vfr t).newRec r, settle r ((Act.vfr t).newRec r) :: rs, rfl, ?_, ?_⟩
  · rw [hs]; rfl
  · have : (t, Role.head).2.isElement = true := rfl
    rw [if_pos this]
    unfold closeRec
    rw [if_pos ⟨hb, rfl⟩, hs]
    rfl

theorem steps_note {a : Act} {m : Token × Role} (he : m.2.isElement = false) (hr : a.records = false)
    (hs : ∀ (F : Type) [PyFloat F] (r : Record F), stepRec r m = a.tweak r)
    (hc : ∀ (F : Type) [PyFloat F] (r : Record F), unplace (a.tweak r) = a.tweak (unplace r)) : Steps a m := by
  intro F _ r rs
  refine ⟨_, _, note_shape a hr r rs, ?_, ?_⟩
  · rw [hs, hc]
  · simp [he]

theorem steps_level {t : Token} (hb : t.base = .SPEED_ALTITUDE) : Steps (.level t) (t, .note) :=
  steps_note rfl rfl (fun _ _ _ => by simp [stepRec, hb]) fun _ _ _ => rfl
theorem steps_stay {t : Token} (hb : t.base = .STAY_TIME) : Steps (.stay t) (t, .note) :=
  steps_note rfl rfl (fun _ _ _ => by simp [stepRec, hb]; rfl) fun _ _ _ => rfl
theorem steps_word {t : Token} : Steps (.text t) (t, .word) :=
  steps_note rfl rfl (fun _ _ _ => rfl) fun F _ r => by
    show unplace (r.appendBreakText t.text) = (unplace r).appendBreakText t.text
    have : (unplace r).breakText = r.breakText := rfl
    unfold Record.appendBreakText
    rw [this]
    split <;> rfl
theorem steps_climbAct {t : Token} {a : Act} {k : Prop} (h : ClimbActG k t a) : Steps a (t, .note) := by
  rcases h with ⟨hb, _, rfl, _⟩ | ⟨hb, rfl, _⟩
  · exact steps_note rfl rfl (fun _ _ _ => by simp [stepRec, hb]) fun _ _ _ => rfl
  · exact steps_note rfl rfl (fun _ _ _ => by simp [stepRec, hb]) fun _ _ _ => rfl


theorem mark_plain {q : Phase} {t : Token} {ts : List Token} (hq : q.allows t = true) (hc : isCruise t ts = false) :
    mark (modeOf q) (t :: ts) = (t, roleOf (decide (q = .adep)) t) :: mark (modeAfter t) ts := by
  have h : ∀ f, mark (.route f) (t :: ts) = (t, roleOf f t) :: mark (modeAfter t) ts := by
    intro f; rw [mark, if_neg (by simp [hc])]
  cases q with
  | text r => simp [Phase.allows] at hq
  | _ => exact h _

theorem not_cruise {t : Token} {ts : List Token} (h : t.base ≠ .C) : isCruise t ts = false := by simp [isCruise, h]

theorem mark_nil (m : Mode) : mark m [] = [] := by cases m <;> rfl

/-- A slash does not follow `C` alone. -/
theorem climb_next {t : Token} {ts : List Token} {as : List Act} {k : Prop} (h : RunG k .climb ts as) : isCruise t ts = false := by
  cases h with
  | stop => simp [isCruise]
  | truncate hq hb | dct hq hb | route hq hb | point hq hb | climb hq hb | cruise hq hb | stay hq hb | break_ hq hb =>
    simp [isCruise, hb]
  | star hq hb => rcases hb with hb | ⟨hb, _⟩ <;> simp [isCruise, hb]

theorem closes_base {t : Token} (hT : Typed t) {r : Str} (h : closes t r) : t.base ≠ .TOO_LONG := by
  intro hb
  rcases typed_pair hT with ⟨h1, _⟩ | ⟨_, h2⟩ | ⟨w, hw, h1, _⟩
  · rw [hb] at h1; cases h1
  · rcases h with ⟨h, _⟩ | ⟨h, _⟩ | ⟨h, _⟩ <;> rw [h] at h2 <;> cases h2
  · have := List.all_eq_true.1 table_no_unknown w hw
    rw [h1] at hb
    simp [hb] at this

theorem not_readOn {t p : Token} {ts : List Token} (hp : p.base = .POINT) (h : t.sub ≠ .IFR ∨ (ts.head?.map (·.base)) = some .SLASH) :
    ¬ readOn t (p :: ts) := by
  unfold readOn
  rintro (h' | ⟨h1, s, r, rfl, h2⟩)
  · exact h' hp
  · rcases h with h | h
    · exact h h1
    · simp at h; exact h2 h

theorem mark_close {r : Str} {t : Token} {ts : List Token} (hc : closes t r) (hr : ¬ readOn t ts) :
    mark (.text r) (t :: ts) = (t, .word) :: mark (.route false) ts := by
  rw [mark, if_pos ⟨hc, hr⟩]

theorem mark_word {r : Str} {t : Token} {ts : List Token} (hc : closes t r → readOn t ts) :
    mark (.text r) (t :: ts) = (t, .word) :: mark (.text r) ts := by
  rw [mark, if_neg (fun h => h.2 (hc h.1))]

theorem mark_route {f : Bool} {t : Token} {ts : List Token} (hb : t.base ≠ .C) :
    mark (.route f) (t :: ts) = (t, roleOf f t) :: mark (modeAfter t) ts := by
  rw [mark, if_neg (by simp [not_cruise hb])]

theorem mark_cruise {q : Phase} {t s p s' l : Token} {ts : List Token} (hq : q.allows t = true) (hb : t.base = .C)
    (hs : s.base = .SLASH) (hs' : s'.base = .SLASH) (hl : l.base = .SPEED_ALTITUDE_ALTITUDE ∨ l.base = .SPEED_ALTITUDE_PLUS) :
    mark (modeOf q) (t :: s :: p :: s' :: l :: ts) =
      (t, .note) :: (s, .note) :: (p, .slot) :: (s', .note) :: (l, .note) :: mark (.route false) ts := by
  have h : ∀ f, mark (.route f) (t :: s :: p :: s' :: l :: ts) =
      (t, .note) :: (s, .note) :: (p, .slot) :: (s', .note) :: (l, .note) :: mark (.route false) ts := by
    intro f
    rw [mark, if_pos (by simp [isCruise, hb, hs]), mark, mark, mark_route (by simp [hs']),
      show modeAfter s' = .route false by simp [modeAfter, hs'], mark_route (by rcases hl with h | h <;> simp [h]),
      show modeAfter l = .route false by rcases hl with h | h <;> simp [modeAfter, h],
      show roleOf false s' = .note by simp [roleOf, hs'],
      show roleOf false l = .note by rcases hl with h | h <;> simp [roleOf, h]]
  cases q with
  | text r => simp [Phase.allows] at hq
  | _ => exact h _

theorem ClimbActG.base {k : Prop} {t : Token} {a : Act} (h : ClimbActG k t a) : t.base = .SPEED_ALTITUDE_ALTITUDE ∨ t.base = .SPEED_ALTITUDE_PLUS := by
  rcases h with ⟨h, _⟩ | ⟨h, _⟩
  · exact .inl h
  · exact .inr h

/-- The elements of a run are those found by the reader. -/
theorem run_story {q : Phase} {ts : List Token} {as : List Act} {k : Prop} (h : RunG k q ts as) :
    ∀ (r : Record F) rs, (runsL as (r :: rs)).map unplace =
      (build (unplace r) (mark (modeOf q) ts)).reverse ++ rs.map unplace := by
  induction h with
  | stop q => intro r rs; rw [mark_nil]; rfl
  | @truncate q t hq hb =>
    intro r rs
    rw [mark_plain hq (not_cruise (by simp [hb])), mark_nil, show roleOf (decide (q = .adep)) t = .note by simp [roleOf, hb]]
    exact build_skip (by simp [stepRec, hb]) rfl rfl
  | @star q t hq hb =>
    intro r rs
    rw [mark_plain hq (not_cruise (by rcases hb with hb | ⟨hb, _⟩ <;> simp [hb])), mark_nil,
      show roleOf (decide (q = .adep)) t = .star by rcases hb with hb | ⟨hb, h⟩ <;> simp [roleOf, *]]
    exact build_step steps_star (fun r rs => rfl)
  | @sid t ts as hb h ih =>
    intro r rs
    show _ = (build (unplace r) (mark (.route true) (t :: ts))).reverse ++ _
    rw [mark_route (by rcases hb with hb | hb <;> simp [hb]),
      show roleOf true t = .sid by rcases hb with hb | hb <;> simp [roleOf, hb],
      show modeAfter t = .route false by rcases hb with hb | hb <;> simp [modeAfter, hb]]
    exact build_step steps_sid ih
  | @dct q t ts as hq hb h ih =>
    intro r rs
    rw [mark_plain hq (not_cruise (by simp [hb])), show roleOf (decide (q = .adep)) t = .head by simp [roleOf, hb],
      show modeAfter t = .route false by simp [modeAfter, hb]]
    exact build_step (steps_dct hb) ih
  | @route q t ts as hq hb h ih =>
    intro r rs
    rw [mark_plain hq (not_cruise (by simp [hb])), show roleOf (decide (q = .adep)) t = .head by simp [roleOf, hb],
      show modeAfter t = .route false by simp [modeAfter, hb]]
    exact build_step (steps_route hb) ih
  | @point q t ts as hq hb hn h ih =>
    intro r rs
    rw [mark_plain hq (not_cruise (by simp [hb])), show roleOf (decide (q = .adep)) t = .head by simp [roleOf, hb],
      show modeAfter t = .route false by simp [modeAfter, hb]]
    exact build_step (steps_point hb) ih
  | @climb q t ts as hq hb h ih =>
    intro r rs
    rw [mark_plain hq (climb_next h), show roleOf (decide (q = .adep)) t = .head by simp [roleOf, hb],
      show modeAfter t = .route false by simp [modeAfter, hb]]
    exact build_step (steps_climb hb) ih
  | @cruise q t s p s' l a ts as hq hb hs hp hs' hl h ih =>
    intro r rs
    rw [mark_cruise hq hb hs hs' hl.base]
    refine build_skip (by simp [stepRec, hb]) rfl (build_skip (by simp [stepRec, hs]) rfl ?_)
    refine build_step steps_slot fun r rs => ?_
    exact build_skip (by simp [stepRec, hs']) rfl (build_step (steps_climbAct hl) ih)
  | @stay q t s m ts as hq hb hs hm h ih =>
    intro r rs
    rw [mark_plain hq (not_cruise (by simp [hb])), show roleOf (decide (q = .adep)) t = .note by simp [roleOf, hb],
      show modeAfter t = .route false by simp [modeAfter, hb], mark_route (by simp [hs]),
      show roleOf false s = .note by simp [roleOf, hs],
      show modeAfter s = .route false by simp [modeAfter, hs], mark_route (by simp [hm]),
      show roleOf false m = .note by simp [roleOf, hm],
      show modeAfter m = .route false by simp [modeAfter, hm]]
    refine build_skip (by simp [stepRec, hb]) rfl (build_skip (by simp [stepRec, hs]) rfl ?_)
    exact build_step (steps_stay hm) ih
  | @break_ q t ts as hq hb h ih =>
    intro r rs
    rw [mark_plain hq (not_cruise (by simp [hb])), show roleOf (decide (q = .adep)) t = .head by simp [roleOf, hb],
      show modeAfter t = .text (rulesOfBreak t.sub) by simp [modeAfter, hb]]
    exact build_step (steps_brk hb) ih
  | @level f s l ts as hs hb hl h ih =>
    intro r rs
    show _ = (build (unplace r) (mark (.route false) (s :: l :: ts))).reverse ++ _
    rw [mark_route (by simp [hs]), show roleOf false s = .note by simp [roleOf, hs],
      show modeAfter s = .route false by simp [modeAfter, hs], mark_route (by simp [hb]),
      show roleOf false l = .note by simp [roleOf, hb],
      show modeAfter l = .route false by simp [modeAfter, hb]]
    exact build_skip (by simp [stepRec, hs]) rfl (build_step (steps_level hb) ih)
  | @vfr f s l ts as hs hb h ih =>
    intro r rs
    show _ = (build (unplace r) (mark (.route false) (s :: l :: ts))).reverse ++ _
    rw [mark_route (by simp [hs]), show roleOf false s = .note by simp [roleOf, hs],
      show modeAfter s = .route false by simp [modeAfter, hs], mark_route (by simp [hb]),
      show roleOf false l = .head by simp [roleOf, hb],
      show modeAfter l = .text (py! "VFR") by simp [modeAfter, hb]]
    exact build_skip (by simp [stepRec, hs]) rfl (build_step (steps_vfr hb) ih)
  | @word r t ts as hb hc h ih =>
    intro r' rs
    show _ = (build (unplace r') (mark (.text r) (t :: ts))).reverse ++ _
    rw [mark_word hc]
    exact build_step steps_word ih
  | @resume r t p ts as hc hi hb hp hn h ih =>
    intro r' rs
    show _ = (build (unplace r') (mark (.text r) (t :: p :: ts))).reverse ++ _
    rw [mark_close hc (not_readOn hp (.inl hi)), mark_route (by simp [hp]), show roleOf false p = .head by simp [roleOf, hp],
      show modeAfter p = .route false by simp [modeAfter, hp]]
    exact build_step steps_word fun r rs => build_step (steps_point hp) ih
  | @resumeIfr r t p s l ts as hc hi hb hp hn hs hl hk h ih =>
    intro r' rs
    show _ = (build (unplace r') (mark (.text r) (t :: p :: s :: l :: ts))).reverse ++ _
    rw [mark_close hc (not_readOn hp (.inr (by simp [hs]))), mark_route (by simp [hp]), show roleOf false p = .head by simp [roleOf, hp],
      show modeAfter p = .route false by simp [modeAfter, hp], mark_route (by simp [hs]),
      show roleOf false s = .note by simp [roleOf, hs],
      show modeAfter s = .route false by simp [modeAfter, hs], mark_route (by simp [hl]),
      show roleOf false l = .note by simp [roleOf, hl],
      show modeAfter l = .route false by simp [modeAfter, hl]]
    exact build_step steps_word fun r rs => build_step (steps_vToI hp) fun r rs =>
      build_skip (by simp [stepRec, hs]) rfl (build_step (steps_level hl) ih)
  | @resumeVfr r t p s l ts as hc hi hb hp hs hl h ih =>
    intro r' rs
    show _ = (build (unplace r') (mark (.text r) (t :: p :: s :: l :: ts))).reverse ++ _
    rw [mark_close hc (not_readOn hp (.inr (by simp [hs]))), mark_route (by simp [hp]), show roleOf false p = .head by simp [roleOf, hp],
      show modeAfter p = .route false by simp [modeAfter, hp], mark_route (by simp [hs]),
      show roleOf false s = .note by simp [roleOf, hs],
      show modeAfter s = .route false by simp [modeAfter, hs], mark_route (by simp [hl]),
      show roleOf false l = .head by simp [roleOf, hl],
      show modeAfter l = .text (py! "VFR") by simp [modeAfter, hl]]
    exact build_step steps_word fun r rs => build_step (steps_vToIToV hp) fun r rs =>
      build_skip (by simp [stepRec, hs]) rfl (build_step (steps_vfr hl) ih)

theorem sent_story {t : Token} {ts : List Token} {as : List Act} {k : Prop} (h : SentRunG k (t :: ts) as) (r : Record F) :
    (runsL as [r]).map unplace = (build (unplace r) (roles (t :: ts))).reverse := by
  cases h with
  | ifr hb hl hne h =>
    unfold roles
    dsimp only
    rw [if_neg (by simp [hb])]
    have := build_step (rs := []) (steps_level hb) (run_story h) (r := r)
    rw [List.map_nil, List.append_nil] at this
    exact this
  | vfr hb h =>
    unfold roles
    dsimp only
    rw [if_pos hb]
    have := build_step (rs := []) (steps_vfr hb) (run_story h) (r := r)
    rw [List.map_nil, List.append_nil] at this
    exact this

end F15
