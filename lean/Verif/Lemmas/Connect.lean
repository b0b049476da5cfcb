import Verif.Lemmas.Told
import Verif.Spec.Connect
/-!
# Neighbouring elements of an accepted route
-/

namespace F15
open Spec

set_option linter.unusedSectionVars false
set_option linter.unusedSimpArgs false
variable {F : Type} [PyFloat F]

theorem kind_head (t : Token) : kind (t, .head) = t.base := rfl
theorem kind_star (t : Token) : kind (t, .star) = .STAR := rfl
theorem kind_sid (t : Token) : kind (t, .sid) = .SID := rfl
theorem kind_slot (t : Token) : kind (t, .slot) = .POINT := rfl

/-- The next element may follow what has been read. -/
def JoinsO : Option (Token × Role) → List (Token × Role) → Token × Role → Prop
  | none, _, m' => kind m' ∈ mayStart
  | some m, mid, m' => Joins m mid m'

/-- All elements of the list may follow the one before them; `m` and `mid` have been read. -/
def Nb : Option (Token × Role) → List (Token × Role) → List (Token × Role) → Prop
  | _, _, [] => True
  | m, mid, x :: l => if x.2.isElement = true then JoinsO m mid x ∧ Nb (some x) [] l else Nb m (mid ++ [x]) l

theorem Nb.note {m : Option (Token × Role)} {mid l : List (Token × Role)} {x : Token × Role} (hx : x.2.isElement = false)
    (h : Nb m (mid ++ [x]) l) : Nb m mid (x :: l) := by
  rw [Nb, if_neg (by simp [hx])]; exact h

theorem Nb.el {m : Option (Token × Role)} {mid l : List (Token × Role)} {x : Token × Role} (hx : x.2.isElement = true)
    (h : JoinsO m mid x) (h' : Nb (some x) [] l) : Nb m mid (x :: l) := by
  rw [Nb, if_pos hx]; exact ⟨h, h'⟩

/-- The last element and what followed it fit the phase. -/
def Sits : Phase → Option (Token × Role) → List (Token × Role) → Prop
  | .adep, m, _ => m = none
  | .sid, m, _ => ∃ x, m = some x ∧ kind x = .SID
  | .point f, m, _ => ∃ x, m = some x ∧ kind x = .POINT ∧ f = isFixed x.1
  | .dct, m, _ => ∃ x, m = some x ∧ kind x = .DCT
  | .route, m, _ => ∃ x, m = some x ∧ kind x = .ROUTE
  | .climb, m, _ => ∃ x, m = some x ∧ kind x = .C
  | .stay, m, mid => ∃ x, m = some x ∧ (kind x = .POINT ∨ kind x = .C) ∧ ∃ y ∈ mid, y.1.base = .STAY_TIME
  | .text _, m, _ => ∃ x, m = some x ∧ (kind x = .BREAK_START ∨ kind x = .SPEED_VFR)

theorem sits_more {q : Phase} {m : Option (Token × Role)} {mid : List (Token × Role)} (l : List (Token × Role)) (h : Sits q m mid) :
    Sits q m (mid ++ l) := by
  cases q with
  | stay =>
    obtain ⟨x, h1, h2, y, hy, h3⟩ := h
    exact ⟨x, h1, h2, y, by simp [hy], h3⟩
  | _ => exact h

/-- An item allowed by the phase may follow. -/
theorem sits_joins {q : Phase} {m : Option (Token × Role)} {mid : List (Token × Role)} {t : Token} {o : Role} (hf : Sits q m mid)
    (hq : q.allows t = true) (hk : kind (t, o) ≠ .SID ∨ q = .adep)
    (ho : (o = .head ∧ t.base ∈ [BaseType.POINT, .ROUTE, .DCT, .C, .BREAK_START]) ∨ (o = .star ∧ t.base ∈ [BaseType.STAR, .SID_STAR]) ∨
      (o = .sid ∧ q = .adep)) :
    JoinsO m mid (t, o) := by
  cases q with
  | adep =>
    rw [show m = none from hf]
    rcases ho with ⟨rfl, ho⟩ | ⟨rfl, ho⟩ | ⟨rfl, -⟩
    · simp only [Phase.allows] at hq
      simp only [JoinsO, kind_head, kind_star, kind_sid, kind_slot, mayStart]
      simp at ho
      rcases ho with h | h | h | h | h <;> simp_all
    · simp [JoinsO, kind_head, kind_star, kind_sid, kind_slot, mayStart]
    · simp [JoinsO, kind_head, kind_star, kind_sid, kind_slot, mayStart]
  | text r => simp [Phase.allows] at hq
  | _ =>
    rcases ho with ⟨rfl, ho⟩ | ⟨rfl, ho⟩ | ⟨-, h⟩
    · simp only [Phase.allows] at hq
      simp at ho
      obtain ⟨x, rfl, hx⟩ := hf
      refine ⟨?_, ?_, ?_⟩
      · simp only [kind_head, kind_star, kind_sid, kind_slot] at *
        rcases ho with h | h | h | h | h <;> simp_all [mayFollow] <;>
          (try rcases hx with ⟨hx | hx, _⟩) <;> simp_all [mayFollow]
      · simp only [kind_head, kind_star, kind_sid, kind_slot] at *
        rcases ho with h | h | h | h | h <;> simp_all <;> (try rcases hx with ⟨hx | hx, _⟩) <;> simp_all
      · simp only [kind_head, kind_star, kind_sid, kind_slot] at *
        rcases ho with h | h | h | h | h <;> simp_all
    · obtain ⟨x, rfl, hx⟩ := hf
      simp only [Phase.allows] at hq
      refine ⟨?_, ?_, ?_⟩
      · simp at ho
        simp only [kind_head, kind_star, kind_sid, kind_slot] at *
        rcases ho with h | h <;> simp_all [mayFollow] <;>
          (try rcases hx with ⟨hx | hx, _⟩) <;> simp_all [mayFollow]
      · simp [kind_head, kind_star, kind_sid, kind_slot]
      · simp [kind_head, kind_star, kind_sid, kind_slot]
    · cases h

/-- The point of a cruise climb may follow. -/
theorem sits_slot {q : Phase} {m : Option (Token × Role)} {mid : List (Token × Role)} {t p : Token} (hf : Sits q m mid)
    (hq : q.allows t = true) (hb : t.base = .C) (mid' : List (Token × Role)) : JoinsO m mid' (p, .slot) := by
  have : ∃ x, m = some x ∧ kind x ∈ [BaseType.POINT, .DCT, .ROUTE, .C] := by
    cases q with
    | adep | sid | text => simp [Phase.allows, hb] at hq
    | stay =>
      obtain ⟨x, rfl, hx, _⟩ := hf
      exact ⟨x, rfl, by rcases hx with hx | hx <;> simp [hx]⟩
    | point f =>
      obtain ⟨x, rfl, hx, _⟩ := hf
      exact ⟨x, rfl, by simp [hx]⟩
    | _ =>
      obtain ⟨x, rfl, hx⟩ := hf
      exact ⟨x, rfl, by simp [hx]⟩
  obtain ⟨x, rfl, hx⟩ := this
  refine ⟨?_, fun _ _ _ => rfl, by simp [kind_head, kind_star, kind_sid, kind_slot]⟩
  show BaseType.POINT ∈ _
  simp at hx
  rcases hx with h | h | h | h <;> simp [h, mayFollow]

theorem run_nb {q : Phase} {ts : List Token} {as : List Act} (h : Run q ts as) :
    ∀ m mid, Sits q m mid → Nb m mid (mark (modeOf q) ts) := by
  have word : ∀ {m : Option (Token × Role)} {mid t l}, Nb m (mid ++ [(t, .word)]) l → Nb m mid ((t, .word) :: l) := fun h => .note rfl h
  have note : ∀ {m : Option (Token × Role)} {mid t l}, Nb m (mid ++ [(t, .note)]) l → Nb m mid ((t, .note) :: l) := fun h => .note rfl h
  induction h with
  | stop q => intro m mid _; rw [mark_nil]; trivial
  | @truncate q t hq hb =>
    intro m mid hf
    rw [mark_plain hq (not_cruise (by simp [hb])), mark_nil, show roleOf (decide (q = .adep)) t = .note by simp [roleOf, hb]]
    exact note trivial
  | @star q t hq hb =>
    intro m mid hf
    rw [mark_plain hq (not_cruise (by rcases hb with hb | ⟨hb, _⟩ <;> simp [hb])), mark_nil,
      show roleOf (decide (q = .adep)) t = .star by rcases hb with hb | ⟨hb, h⟩ <;> simp [roleOf, *]]
    exact .el rfl (sits_joins hf hq (.inl (by simp [kind_head, kind_star, kind_sid, kind_slot])) (.inr (.inl ⟨rfl, by rcases hb with h | ⟨h, _⟩ <;> simp [h]⟩))) trivial
  | @sid t ts as hb h ih =>
    intro m mid hf
    show Nb _ _ (mark (.route true) (t :: ts))
    rw [mark_route (by rcases hb with hb | hb <;> simp [hb]),
      show roleOf true t = .sid by rcases hb with hb | hb <;> simp [roleOf, hb],
      show modeAfter t = .route false by rcases hb with hb | hb <;> simp [modeAfter, hb]]
    refine .el rfl ?_ (ih _ _ ⟨_, rfl, rfl⟩)
    rw [show m = none from hf]
    simp [JoinsO, kind_head, kind_star, kind_sid, kind_slot, mayStart]
  | @dct q t ts as hq hb h ih =>
    intro m mid hf
    rw [mark_plain hq (not_cruise (by simp [hb])), show roleOf (decide (q = .adep)) t = .head by simp [roleOf, hb],
      show modeAfter t = .route false by simp [modeAfter, hb]]
    exact .el rfl (sits_joins hf hq (.inl (by simp [kind_head, kind_star, kind_sid, kind_slot, hb])) (.inl ⟨rfl, by simp [hb]⟩)) (ih _ _ ⟨_, rfl, hb⟩)
  | @route q t ts as hq hb h ih =>
    intro m mid hf
    rw [mark_plain hq (not_cruise (by simp [hb])), show roleOf (decide (q = .adep)) t = .head by simp [roleOf, hb],
      show modeAfter t = .route false by simp [modeAfter, hb]]
    exact .el rfl (sits_joins hf hq (.inl (by simp [kind_head, kind_star, kind_sid, kind_slot, hb])) (.inl ⟨rfl, by simp [hb]⟩)) (ih _ _ ⟨_, rfl, hb⟩)
  | @point q t ts as hq hb hn h ih =>
    intro m mid hf
    rw [mark_plain hq (not_cruise (by simp [hb])), show roleOf (decide (q = .adep)) t = .head by simp [roleOf, hb],
      show modeAfter t = .route false by simp [modeAfter, hb]]
    exact .el rfl (sits_joins hf hq (.inl (by simp [kind_head, kind_star, kind_sid, kind_slot, hb])) (.inl ⟨rfl, by simp [hb]⟩)) (ih _ _ ⟨_, rfl, hb, rfl⟩)
  | @climb q t ts as hq hb h ih =>
    intro m mid hf
    rw [mark_plain hq (climb_next h), show roleOf (decide (q = .adep)) t = .head by simp [roleOf, hb],
      show modeAfter t = .route false by simp [modeAfter, hb]]
    exact .el rfl (sits_joins hf hq (.inl (by simp [kind_head, kind_star, kind_sid, kind_slot, hb])) (.inl ⟨rfl, by simp [hb]⟩)) (ih _ _ ⟨_, rfl, hb⟩)
  | @cruise q t s p s' l a ts as hq hb hs hp hs' hl h ih =>
    intro m mid hf
    rw [mark_cruise hq hb hs hs' hl.base]
    refine note (note (.el rfl (sits_slot hf hq hb _) (note (note ?_))))
    exact ih _ _ ⟨_, rfl, rfl, rfl⟩
  | @stay q t s m ts as hq hb hs hm h ih =>
    intro x mid hf
    rw [mark_plain hq (not_cruise (by simp [hb])), show roleOf (decide (q = .adep)) t = .note by simp [roleOf, hb],
      show modeAfter t = .route false by simp [modeAfter, hb], mark_route (by simp [hs]),
      show roleOf false s = .note by simp [roleOf, hs],
      show modeAfter s = .route false by simp [modeAfter, hs], mark_route (by simp [hm]),
      show roleOf false m = .note by simp [roleOf, hm],
      show modeAfter m = .route false by simp [modeAfter, hm]]
    refine note (note (note (ih _ _ ?_)))
    have : ∃ y, x = some y ∧ (kind y = .POINT ∨ kind y = .C) := by
      cases q with
      | adep | sid | text | dct | route | stay => simp [Phase.allows, hb] at hq
      | point f =>
        obtain ⟨x, rfl, hx, _⟩ := hf
        exact ⟨x, rfl, .inl hx⟩
      | climb =>
        obtain ⟨x, rfl, hx⟩ := hf
        exact ⟨x, rfl, .inr hx⟩
    obtain ⟨y, rfl, hy⟩ := this
    exact ⟨y, rfl, hy, (m, .note), by simp, hm⟩
  | @break_ q t ts as hq hb h ih =>
    intro m mid hf
    rw [mark_plain hq (not_cruise (by simp [hb])), show roleOf (decide (q = .adep)) t = .head by simp [roleOf, hb],
      show modeAfter t = .text (rulesOfBreak t.sub) by simp [modeAfter, hb]]
    exact .el rfl (sits_joins hf hq (.inl (by simp [kind_head, kind_star, kind_sid, kind_slot, hb])) (.inl ⟨rfl, by simp [hb]⟩)) (ih _ _ ⟨_, rfl, .inl hb⟩)
  | @level f s l ts as hs hb hl h ih =>
    intro m mid hf
    show Nb _ _ (mark (.route false) (s :: l :: ts))
    rw [mark_route (by simp [hs]), show roleOf false s = .note by simp [roleOf, hs],
      show modeAfter s = .route false by simp [modeAfter, hs], mark_route (by simp [hb]),
      show roleOf false l = .note by simp [roleOf, hb],
      show modeAfter l = .route false by simp [modeAfter, hb]]
    exact note (note (ih _ _ hf))
  | @vfr f s l ts as hs hb h ih =>
    intro m mid hf
    show Nb _ _ (mark (.route false) (s :: l :: ts))
    rw [mark_route (by simp [hs]), show roleOf false s = .note by simp [roleOf, hs],
      show modeAfter s = .route false by simp [modeAfter, hs], mark_route (by simp [hb]),
      show roleOf false l = .head by simp [roleOf, hb],
      show modeAfter l = .text (py! "VFR") by simp [modeAfter, hb]]
    refine note (.el rfl ?_ (ih _ _ ⟨_, rfl, .inr hb⟩))
    obtain ⟨x, rfl, hx, _⟩ := hf
    exact ⟨by simp [kind_head, kind_star, kind_sid, kind_slot, hb, hx, mayFollow], by simp [hx], by simp [kind_head, kind_star, kind_sid, kind_slot, hb]⟩
  | @word r t ts as hb hc h ih =>
    intro m mid hf
    show Nb _ _ (mark (.text r) (t :: ts))
    rw [mark_word hc]
    exact word (ih _ _ hf)
  | @resume r t p ts as hc hi hb hp hn h ih =>
    intro m mid hf
    show Nb _ _ (mark (.text r) (t :: p :: ts))
    rw [mark_close hc (not_readOn hp (.inl hi)), mark_route (by simp [hp]), show roleOf false p = .head by simp [roleOf, hp],
      show modeAfter p = .route false by simp [modeAfter, hp]]
    refine word (.el rfl ?_ (ih _ _ ⟨_, rfl, hp, rfl⟩))
    obtain ⟨x, rfl, hx⟩ := hf
    exact ⟨by rcases hx with hx | hx <;> simp [kind_head, kind_star, kind_sid, kind_slot, hp, hx, mayFollow], by rcases hx with hx | hx <;> simp [hx], by simp [kind_head, kind_star, kind_sid, kind_slot, hp]⟩
  | @resumeIfr r t p s l ts as hc hi hb hp hn hs hl hk h ih =>
    intro m mid hf
    show Nb _ _ (mark (.text r) (t :: p :: s :: l :: ts))
    rw [mark_close hc (not_readOn hp (.inr (by simp [hs]))), mark_route (by simp [hp]), show roleOf false p = .head by simp [roleOf, hp],
      show modeAfter p = .route false by simp [modeAfter, hp], mark_route (by simp [hs]),
      show roleOf false s = .note by simp [roleOf, hs],
      show modeAfter s = .route false by simp [modeAfter, hs], mark_route (by simp [hl]),
      show roleOf false l = .note by simp [roleOf, hl],
      show modeAfter l = .route false by simp [modeAfter, hl]]
    refine word (.el rfl ?_ (note (note (ih _ _ ⟨_, rfl, hp, rfl⟩))))
    obtain ⟨x, rfl, hx⟩ := hf
    exact ⟨by rcases hx with hx | hx <;> simp [kind_head, kind_star, kind_sid, kind_slot, hp, hx, mayFollow], by rcases hx with hx | hx <;> simp [hx], by simp [kind_head, kind_star, kind_sid, kind_slot, hp]⟩
  | @resumeVfr r t p s l ts as hc hi hb hp hs hl h ih =>
    intro m mid hf
    show Nb _ _ (mark (.text r) (t :: p :: s :: l :: ts))
    rw [mark_close hc (not_readOn hp (.inr (by simp [hs]))), mark_route (by simp [hp]), show roleOf false p = .head by simp [roleOf, hp],
      show modeAfter p = .route false by simp [modeAfter, hp], mark_route (by simp [hs]),
      show roleOf false s = .note by simp [roleOf, hs],
      show modeAfter s = .route false by simp [modeAfter, hs], mark_route (by simp [hl]),
      show roleOf false l = .head by simp [roleOf, hl],
      show modeAfter l = .text (py! "VFR") by simp [modeAfter, hl]]
    obtain ⟨x, rfl, hx⟩ := hf
    refine word (.el rfl ⟨by rcases hx with hx | hx <;> simp [kind_head, kind_star, kind_sid, kind_slot, hp, hx, mayFollow], by rcases hx with hx | hx <;> simp [hx], by simp [kind_head, kind_star, kind_sid, kind_slot, hp]⟩
      (note (.el rfl ⟨by simp [kind_head, kind_star, kind_sid, kind_slot, hp, hl, mayFollow], by simp [kind_head, kind_star, kind_sid, kind_slot, hp], by simp [kind_head, kind_star, kind_sid, kind_slot, hl]⟩ (ih _ _ ⟨_, rfl, .inr hl⟩))))

theorem sent_nb {ts : List Token} {as : List Act} (h : SentRun ts as) : Nb none [] (roles ts) := by
  cases h with
  | @ifr t ts as hb hl hne h =>
    have : roles (t :: ts) = (t, .note) :: mark (.route true) ts := by
      unfold roles; dsimp only; rw [if_neg (by simp [hb])]
    rw [this]
    exact .note rfl (run_nb h _ _ rfl)
  | @vfr t ts as hb h =>
    have : roles (t :: ts) = (t, .head) :: mark (.text (py! "VFR")) ts := by
      unfold roles; dsimp only; rw [if_pos hb]
    rw [this]
    refine .el rfl ?_ (run_nb h _ _ ⟨_, rfl, .inr hb⟩)
    simp [JoinsO, kind_head, kind_star, kind_sid, kind_slot, mayStart, hb]

/-- Reading off a pair of neighbours. -/
theorem Nb.first {m : Option (Token × Role)} {mid : List (Token × Role)} {x : Token × Role} {after : List (Token × Role)} :
    ∀ {l : List (Token × Role)}, (∀ y ∈ l, y.2.isElement = false) → x.2.isElement = true → ∀ {mid}, Nb m mid (l ++ x :: after) →
      JoinsO m (mid ++ l) x ∧ Nb (some x) [] after
  | [], _, hx, mid, h => by
    rw [List.nil_append, Nb, if_pos hx] at h
    simpa using h
  | y :: l, hl, hx, mid, h => by
    rw [List.cons_append, Nb, if_neg (by simp [hl y])] at h
    have := Nb.first (m := m) (mid := mid) (fun z hz => hl z (by simp [hz])) hx h
    simpa using this

theorem Nb.skip : ∀ {before : List (Token × Role)} {m : Option (Token × Role)} {mid : List (Token × Role)} {x : Token × Role}
    {after : List (Token × Role)}, x.2.isElement = true → Nb m mid (before ++ x :: after) → Nb (some x) [] after
  | [], m, mid, x, after, hx, h => by
    rw [List.nil_append, Nb, if_pos hx] at h
    exact h.2
  | y :: before, m, mid, x, after, hx, h => by
    rw [List.cons_append, Nb] at h
    split at h
    · exact Nb.skip hx h.2
    · exact Nb.skip hx h

end F15
