import Verif.Lemmas.Story
/-!
# The roles of an accepted field 15, and the elements in terms of them
-/

namespace F15
open Spec

set_option linter.unusedSectionVars false
variable {F : Type} [PyFloat F]

/-- Where the reader is: directly after the initial SPEED/LEVEL, in the route, in free text, before the second `/` or
the levels of a cruise climb. -/
inductive Spot
  | start | route | text | slash | levels
deriving DecidableEq

/-- In the route. -/
def Spot.Open (p : Spot) : Prop := p = .start ∨ p = .route

def noteBases : List BaseType := [.SLASH, .STAY, .STAY_TIME, .TRUNCATE, .C, .SPEED_ALTITUDE]

/-- The roles that occur in accepted field 15s. -/
inductive Well : Spot → List (Token × Role) → Prop
  | nil {p : Spot} (hp : p.Open ∨ p = .text) : Well p []
  | word {t l} (h : Well .text l) : Well .text ((t, .word) :: l)
  | note {p t l} (hp : p.Open) (hb : t.base ∈ noteBases) (ht : t.base = .TRUNCATE → l = []) (h : Well .route l) :
      Well p ((t, .note) :: l)
  | sid {t l} (hb : t.base = .SID ∨ t.base = .SID_STAR) (h : Well .route l) : Well .start ((t, .sid) :: l)
  | star {p t} (hp : p.Open) (hb : t.base = .STAR ∨ t.base = .SID_STAR) : Well p [(t, .star)]
  | slot {p t l} (hp : p.Open) (h : Well .slash l) : Well p ((t, .slot) :: l)
  | slash {t l} (hb : t.base = .SLASH) (h : Well .levels l) : Well .slash ((t, .note) :: l)
  | levels {t l} (hb : t.base = .SPEED_ALTITUDE_ALTITUDE ∧ t.sub ∉ ccBad ∨ t.base = .SPEED_ALTITUDE_PLUS)
      (h : Well .route l) : Well .levels ((t, .note) :: l)
  | point {p t l} (hp : p.Open ∨ p = .text) (hb : t.base = .POINT) (h : Well .route l) : Well p ((t, .head) :: l)
  | plain {p t l} (hp : p.Open) (hb : t.base = .ROUTE ∨ t.base = .DCT ∨ t.base = .C) (h : Well .route l) : Well p ((t, .head) :: l)
  | brk {p t l} (hp : p.Open) (hb : t.base = .BREAK_START ∨ t.base = .SPEED_VFR) (h : Well .text l) : Well p ((t, .head) :: l)

def spotOf : Phase → Spot
  | .adep => .start
  | .text _ => .text
  | _ => .route

theorem spot_allows {q : Phase} {t : Token} (h : q.allows t = true) : (spotOf q).Open := by
  cases q <;> simp_all [Phase.allows, spotOf, Spot.Open]

theorem run_well {q : Phase} {ts : List Token} {as : List Act} {k : Prop} (h : RunG k q ts as) : Well (spotOf q) (mark (modeOf q) ts) := by
  have note : ∀ {p t l}, Spot.Open p → t.base ∈ noteBases → t.base ≠ .TRUNCATE →
      Well .route l → Well p ((t, .note) :: l) :=
    fun a b d e => .note a b (fun h => absurd h d) e
  have ro : Spot.Open .route := .inr rfl
  induction h with
  | stop q => rw [mark_nil]; exact .nil (by cases q <;> simp [spotOf, Spot.Open])
  | @truncate q t hq hb =>
    rw [mark_plain hq (not_cruise (by simp [hb])), mark_nil, show roleOf (decide (q = .adep)) t = .note by simp [roleOf, hb]]
    exact .note (spot_allows hq) (by simp [hb, noteBases]) (fun _ => rfl) (.nil (.inl ro))
  | @star q t hq hb =>
    rw [mark_plain hq (not_cruise (by rcases hb with hb | ⟨hb, _⟩ <;> simp [hb])), mark_nil,
      show roleOf (decide (q = .adep)) t = .star by rcases hb with hb | ⟨hb, h⟩ <;> simp [roleOf, *]]
    exact .star (spot_allows hq) (by rcases hb with h | ⟨h, _⟩ <;> simp [h])
  | @sid t ts as hb h ih =>
    show Well _ (mark (.route true) (t :: ts))
    rw [mark_route (by rcases hb with hb | hb <;> simp [hb]),
      show roleOf true t = .sid by rcases hb with hb | hb <;> simp [roleOf, hb],
      show modeAfter t = .route false by rcases hb with hb | hb <;> simp [modeAfter, hb]]
    exact .sid hb ih
  | @dct q t ts as hq hb h ih =>
    rw [mark_plain hq (not_cruise (by simp [hb])), show roleOf (decide (q = .adep)) t = .head by simp [roleOf, hb],
      show modeAfter t = .route false by simp [modeAfter, hb]]
    exact .plain (spot_allows hq) (by simp [hb]) ih
  | @route q t ts as hq hb h ih =>
    rw [mark_plain hq (not_cruise (by simp [hb])), show roleOf (decide (q = .adep)) t = .head by simp [roleOf, hb],
      show modeAfter t = .route false by simp [modeAfter, hb]]
    exact .plain (spot_allows hq) (by simp [hb]) ih
  | @point q t ts as hq hb hn h ih =>
    rw [mark_plain hq (not_cruise (by simp [hb])), show roleOf (decide (q = .adep)) t = .head by simp [roleOf, hb],
      show modeAfter t = .route false by simp [modeAfter, hb]]
    exact .point (.inl (spot_allows hq)) hb ih
  | @climb q t ts as hq hb h ih =>
    rw [mark_plain hq (climb_next h), show roleOf (decide (q = .adep)) t = .head by simp [roleOf, hb],
      show modeAfter t = .route false by simp [modeAfter, hb]]
    exact .plain (spot_allows hq) (by simp [hb]) ih
  | @cruise q t s p s' l a ts as hq hb hs hp hs' hl h ih =>
    rw [mark_cruise hq hb hs hs' hl.base]
    refine note (spot_allows hq) (by simp [hb, noteBases]) (by simp [hb]) ?_
    refine note ro (by simp [hs, noteBases]) (by simp [hs]) ?_
    refine .slot ro (.slash hs' (.levels ?_ ih))
    rcases hl with ⟨h1, h2, _⟩ | ⟨h, _⟩
    · exact .inl ⟨h1, h2⟩
    · exact .inr h
  | @stay q t s m ts as hq hb hs hm h ih =>
    rw [mark_plain hq (not_cruise (by simp [hb])), show roleOf (decide (q = .adep)) t = .note by simp [roleOf, hb],
      show modeAfter t = .route false by simp [modeAfter, hb], mark_route (by simp [hs]),
      show roleOf false s = .note by simp [roleOf, hs],
      show modeAfter s = .route false by simp [modeAfter, hs], mark_route (by simp [hm]),
      show roleOf false m = .note by simp [roleOf, hm],
      show modeAfter m = .route false by simp [modeAfter, hm]]
    refine note (spot_allows hq) (by simp [hb, noteBases]) (by simp [hb]) ?_
    refine note ro (by simp [hs, noteBases]) (by simp [hs]) ?_
    exact note ro (by simp [hm, noteBases]) (by simp [hm]) ih
  | @break_ q t ts as hq hb h ih =>
    rw [mark_plain hq (not_cruise (by simp [hb])), show roleOf (decide (q = .adep)) t = .head by simp [roleOf, hb],
      show modeAfter t = .text (rulesOfBreak t.sub) by simp [modeAfter, hb]]
    exact .brk (spot_allows hq) (.inl hb) ih
  | @level f s l ts as hs hb hl h ih =>
    show Well _ (mark (.route false) (s :: l :: ts))
    rw [mark_route (by simp [hs]), show roleOf false s = .note by simp [roleOf, hs],
      show modeAfter s = .route false by simp [modeAfter, hs], mark_route (by simp [hb]),
      show roleOf false l = .note by simp [roleOf, hb],
      show modeAfter l = .route false by simp [modeAfter, hb]]
    refine note ro (by simp [hs, noteBases]) (by simp [hs]) ?_
    exact note ro (by simp [hb, noteBases]) (by simp [hb]) ih
  | @vfr f s l ts as hs hb h ih =>
    show Well _ (mark (.route false) (s :: l :: ts))
    rw [mark_route (by simp [hs]), show roleOf false s = .note by simp [roleOf, hs],
      show modeAfter s = .route false by simp [modeAfter, hs], mark_route (by simp [hb]),
      show roleOf false l = .head by simp [roleOf, hb],
      show modeAfter l = .text (py! "VFR") by simp [modeAfter, hb]]
    refine note ro (by simp [hs, noteBases]) (by simp [hs]) ?_
    exact .brk ro (.inr hb) ih
  | @word r t ts as hb hc h ih =>
    show Well _ (mark (.text r) (t :: ts))
    rw [mark_word hc]
    exact .word ih
  | @resume r t p ts as hc hi hb hp hn h ih =>
    show Well _ (mark (.text r) (t :: p :: ts))
    rw [mark_close hc (not_readOn hp (.inl hi)), mark_route (by simp [hp]), show roleOf false p = .head by simp [roleOf, hp],
      show modeAfter p = .route false by simp [modeAfter, hp]]
    exact .word (.point (.inr rfl) hp ih)
  | @resumeIfr r t p s l ts as hc hi hb hp hn hs hl hk h ih =>
    show Well _ (mark (.text r) (t :: p :: s :: l :: ts))
    rw [mark_close hc (not_readOn hp (.inr (by simp [hs]))), mark_route (by simp [hp]), show roleOf false p = .head by simp [roleOf, hp],
      show modeAfter p = .route false by simp [modeAfter, hp], mark_route (by simp [hs]),
      show roleOf false s = .note by simp [roleOf, hs],
      show modeAfter s = .route false by simp [modeAfter, hs], mark_route (by simp [hl]),
      show roleOf false l = .note by simp [roleOf, hl],
      show modeAfter l = .route false by simp [modeAfter, hl]]
    refine .word (.point (.inr rfl) hp (note ro (by simp [hs, noteBases]) (by simp [hs]) ?_))
    exact note ro (by simp [hl, noteBases]) (by simp [hl]) ih
  | @resumeVfr r t p s l ts as hc hi hb hp hs hl h ih =>
    show Well _ (mark (.text r) (t :: p :: s :: l :: ts))
    rw [mark_close hc (not_readOn hp (.inr (by simp [hs]))), mark_route (by simp [hp]), show roleOf false p = .head by simp [roleOf, hp],
      show modeAfter p = .route false by simp [modeAfter, hp], mark_route (by simp [hs]),
      show roleOf false s = .note by simp [roleOf, hs],
      show modeAfter s = .route false by simp [modeAfter, hs], mark_route (by simp [hl]),
      show roleOf false l = .head by simp [roleOf, hl],
      show modeAfter l = .text (py! "VFR") by simp [modeAfter, hl]]
    refine .word (.point (.inr rfl) hp (note ro (by simp [hs, noteBases]) (by simp [hs]) ?_))
    exact .brk ro (.inr hl) ih

/-- The roles of a whole field 15. -/
inductive WellAll : List (Token × Role) → Prop
  | ifr {t l} (hb : t.base = .SPEED_ALTITUDE) (hne : l ≠ []) (h : Well .start l) : WellAll ((t, .note) :: l)
  | vfr {t l} (hb : t.base = .SPEED_VFR) (h : Well .text l) : WellAll ((t, .head) :: l)

theorem mark_tokens (m : Mode) (ts : List Token) : (mark m ts).map (·.1) = ts := by
  induction ts generalizing m with
  | nil => rw [mark_nil]; rfl
  | cons t ts ih =>
    cases m with
    | route f => rw [mark]; split <;> simp [ih]
    | _ => rw [mark]; simp [ih]

theorem roles_tokens (ts : List Token) : (roles ts).map (·.1) = ts := by
  cases ts with
  | nil => rfl
  | cons t ts => unfold roles; dsimp only; split <;> simp [mark_tokens]

theorem sent_well {ts : List Token} {as : List Act} {k : Prop} (h : SentRunG k ts as) : WellAll (roles ts) := by
  cases h with
  | @ifr t ts as hb hl hne h =>
    have : roles (t :: ts) = (t, .note) :: mark (.route true) ts := by
      unfold roles; dsimp only; rw [if_neg (by simp [hb])]
    rw [this]
    refine .ifr hb ?_ (run_well h)
    intro h
    have := congrArg (List.map (·.1)) h
    rw [mark_tokens] at this
    exact hne this
  | @vfr t ts as hb h =>
    have : roles (t :: ts) = (t, .head) :: mark (.text (py! "VFR")) ts := by
      unfold roles; dsimp only; rw [if_pos hb]
    rw [this]
    exact .vfr hb (run_well h)

/-! ### The elements -/

/-- The current element after reading `l`. -/
def cur (r : Record F) (l : List (Token × Role)) : Record F := l.foldl stepRec r

/-- The element as it is left when what follows is read. -/
def finalRec (r : Record F) (after : List (Token × Role)) : Record F :=
  match after.dropWhile (!·.2.isElement) with
  | m :: _ => closeRec r m
  | [] => r

theorem build_zero (r : Record F) (l : List (Token × Role)) : (build r l)[0]? = some (finalRec (cur r (about l)) l) := by
  induction l generalizing r with
  | nil => rfl
  | cons m l ih =>
    unfold build
    cases h : m.2.isElement with
    | true => simp [about, finalRec, h, cur]
    | false =>
      rw [if_neg (by simp), ih]
      simp [about, finalRec, h, cur]

theorem build_length (r : Record F) (l : List (Token × Role)) : (build r l).length = elementCount l + 1 := by
  induction l generalizing r with
  | nil => rfl
  | cons m l ih =>
    unfold build elementCount
    cases h : m.2.isElement with
    | true => simp [h, ih, elementCount]
    | false => rw [if_neg (by simp), ih]; simp [elementCount, h]

theorem build_at (r : Record F) (pre : List (Token × Role)) (m : Token × Role) (after : List (Token × Role))
    (hm : m.2.isElement = true) :
    (build r (pre ++ m :: after))[elementCount pre + 1]? = some (finalRec (cur r (pre ++ m :: about after)) after) := by
  induction pre generalizing r with
  | nil =>
    show (build r (m :: after))[1]? = _
    unfold build
    rw [if_pos hm, List.getElem?_cons_succ, build_zero]
    rfl
  | cons x pre ih =>
    show (build r (x :: (pre ++ m :: after)))[_]? = _
    unfold build
    cases h : x.2.isElement with
    | true =>
      have : elementCount (x :: pre) = elementCount pre + 1 := by simp [elementCount, h]
      rw [if_pos rfl, this, List.getElem?_cons_succ, ih]; rfl
    | false =>
      have : elementCount (x :: pre) = elementCount pre := by simp [elementCount, h]
      rw [if_neg (by simp), this, ih]; rfl

/-- Every element is the ADEP or comes from a token. -/
theorem split_at (l : List (Token × Role)) (k : Nat) (hk : k < elementCount l) :
    ∃ pre m after, l = pre ++ m :: after ∧ m.2.isElement = true ∧ elementCount pre = k := by
  induction l generalizing k with
  | nil => simp [elementCount] at hk
  | cons x l ih =>
    cases h : x.2.isElement with
    | true =>
      have : elementCount (x :: l) = elementCount l + 1 := by simp [elementCount, h]
      cases k with
      | zero => exact ⟨[], x, l, rfl, h, rfl⟩
      | succ k =>
        obtain ⟨pre, m, after, rfl, h1, h2⟩ := ih k (by omega)
        exact ⟨x :: pre, m, after, rfl, h1, by simp [elementCount, h] at h2 ⊢; omega⟩
    | false =>
      have : elementCount (x :: l) = elementCount l := by simp [elementCount, h]
      obtain ⟨pre, m, after, rfl, h1, h2⟩ := ih k (by omega)
      exact ⟨x :: pre, m, after, rfl, h1, by simp [elementCount, h] at h2 ⊢; omega⟩

end F15
