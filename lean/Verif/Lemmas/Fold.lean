import Verif.Lemmas.Told
/-!
# Attributes of the current element
-/

namespace F15
open Spec

set_option linter.unusedSectionVars false
variable {F : Type} [PyFloat F]

theorem about_not {l : List (Token × Role)} {m : Token × Role} (h : m ∈ about l) : m.2.isElement = false := by
  unfold about at h
  have : ∀ l : List (Token × Role), m ∈ l.takeWhile (!·.2.isElement) → m.2.isElement = false := by
    intro l
    induction l with
    | nil => intro h; cases h
    | cons x l ih =>
      rw [List.takeWhile_cons]
      split
      · rename_i hx
        intro h
        rcases List.mem_cons.1 h with rfl | h
        · simpa using hx
        · exact ih h
      · intro h; cases h
  exact this l h

theorem cur_append (r : Record F) (a b : List (Token × Role)) : cur r (a ++ b) = cur (cur r a) b := List.foldl_append

theorem cur_cons (r : Record F) (m : Token × Role) (b : List (Token × Role)) : cur r (m :: b) = cur (stepRec r m) b := rfl

theorem step_note (r : Record F) {m : Token × Role} (hm : m.2.isElement = false) : Tweak r (stepRec r m) := by
  obtain ⟨t, o⟩ := m
  cases o with
  | word => exact tweak_ok (.text t) r
  | note =>
    unfold stepRec
    dsimp only
    split
    · exact tweak_ok _ r
    · exact tweak_ok _ r
    · exact tweak_ok _ r
    · exact tweak_ok (.stay t) r
    · exact Tweak.refl r
  | _ => cases hm

theorem Tweak.trans {a b c : Record F} (h : Tweak a b) (h' : Tweak b c) : Tweak a c := by
  unfold Tweak at *; rw [h', h]

theorem cur_tweak (r : Record F) {l : List (Token × Role)} (h : ∀ m ∈ l, m.2.isElement = false) : Tweak r (cur r l) := by
  induction l generalizing r with
  | nil => exact Tweak.refl r
  | cons m l ih =>
    exact (step_note r (h m (by simp))).trans (ih _ fun x hx => h x (by simp [hx]))

theorem final_settle (r : Record F) (after : List (Token × Role)) : finalRec r after = r ∨ ∃ v, finalRec r after = settle r v := by
  unfold finalRec
  split
  · unfold closeRec; split
    · exact .inr ⟨_, rfl⟩
    · exact .inl rfl
  · exact .inl rfl

/-- The attributes not touched by a SPEED/VFR that follows. -/
theorem final_fields (r : Record F) (after : List (Token × Role)) :
    (finalRec r after).name = r.name ∧ (finalRec r after).start = r.start ∧ (finalRec r after).stop = r.stop ∧
    (finalRec r after).base = r.base ∧ (finalRec r after).sub = r.sub ∧ (finalRec r after).rules = r.rules ∧
    (finalRec r after).breakText = r.breakText ∧ (finalRec r after).stayTime = r.stayTime ∧
    (finalRec r after).cruiseTo = r.cruiseTo ∧ (finalRec r after).cruiseToSi = r.cruiseToSi := by
  rcases final_settle r after with h | ⟨v, h⟩ <;> rw [h] <;> exact ⟨rfl, rfl, rfl, rfl, rfl, rfl, rfl, rfl, rfl, rfl⟩

theorem Tweak.fields {r r' : Record F} (h : Tweak r r') : r'.name = r.name ∧ r'.start = r.start ∧ r'.stop = r.stop ∧
    r'.base = r.base ∧ r'.sub = r.sub := by
  rw [h]; exact ⟨rfl, rfl, rfl, rfl, rfl⟩

/-! ### Identity -/

/-- The new element has the token's indices, name and types. -/
theorem step_element (r : Record F) {m : Token × Role} (hm : m.2.isElement = true) :
    (stepRec r m).start = m.1.start ∧ (stepRec r m).stop = m.1.stop ∧
    (stepRec r m).name = (if m.2 = .head ∧ m.1.base = .SPEED_VFR then py! "VFR" else m.1.text) ∧
    (stepRec r m).base = (if m.2 = .sid then .SID else if m.2 = .star then .STAR else m.1.base) ∧
    (stepRec r m).sub = (if m.2 = .sid then (if m.1.text = py! "SID" then .SID_LITERAL else .SID)
      else if m.2 = .star then (if m.1.text = py! "STAR" then .STAR_LITERAL else .STAR) else m.1.sub) ∧
    (stepRec r m).breakText = [] ∧ (stepRec r m).stayTime = 0 ∧ (stepRec r m).cruiseTo = [] ∧ (stepRec r m).cruiseToSi = 0 := by
  obtain ⟨t, o⟩ := m
  cases o with
  | word | note => cases hm
  | sid | star | slot => simp [stepRec]; exact ⟨rfl, rfl, rfl, rfl, rfl, rfl, rfl, rfl, rfl⟩
  | head =>
    have brk : ∀ (u : SubType) (x : Record F), (brkRules u x).start = x.start ∧ (brkRules u x).stop = x.stop ∧
        (brkRules u x).name = x.name ∧ (brkRules u x).base = x.base ∧ (brkRules u x).sub = x.sub ∧
        (brkRules u x).breakText = x.breakText ∧ (brkRules u x).stayTime = x.stayTime ∧ (brkRules u x).cruiseTo = x.cruiseTo ∧
        (brkRules u x).cruiseToSi = x.cruiseToSi := by
      intro u x; unfold brkRules; split <;> exact ⟨rfl, rfl, rfl, rfl, rfl, rfl, rfl, rfl, rfl⟩
    unfold stepRec
    dsimp only
    split
    · rename_i hb; simp [hb]; exact ⟨rfl, rfl, rfl, hb, rfl, rfl, rfl, rfl, rfl⟩
    · rename_i hb; simp [hb]; exact ⟨rfl, rfl, rfl, hb, rfl, rfl, rfl, rfl, rfl⟩
    · rename_i hb
      obtain ⟨h1, h2, h3, h4, h5, h6, h7, h8, h9⟩ := brk t.sub (fresh r t)
      simp [hb]
      exact ⟨h1, h2, h3, h4.trans hb, h5, h6, h7, h8, h9⟩
    · rename_i hb; simp [hb]; exact ⟨rfl, rfl, rfl, hb, rfl, rfl, rfl, rfl, rfl⟩
    · rename_i hb1 hb2 hb3 hb4
      have : ¬ t.base = .SPEED_VFR := hb4
      simp [this]; exact ⟨rfl, rfl, rfl, rfl, rfl, rfl, rfl, rfl, rfl⟩

/-! ### Speed and level -/

/-- Same speed and level. -/
def SameSet (r r' : Record F) : Prop := r'.speed = r.speed ∧ r'.altitude = r.altitude

theorem step_same (r : Record F) {m : Token × Role} (h : isChange m = false) : SameSet r (stepRec r m) := by
  obtain ⟨t, o⟩ := m
  cases o with
  | word =>
    show SameSet r (r.appendBreakText t.text)
    unfold Record.appendBreakText; split <;> exact ⟨rfl, rfl⟩
  | sid | star | slot => exact ⟨rfl, rfl⟩
  | head =>
    unfold stepRec
    dsimp only
    split
    · exact ⟨rfl, rfl⟩
    · exact ⟨rfl, rfl⟩
    · unfold brkRules; split <;> exact ⟨rfl, rfl⟩
    · rename_i hb; simp [isChange, hb] at h
    · exact ⟨rfl, rfl⟩
  | note =>
    unfold stepRec
    dsimp only
    split
    · rename_i hb; simp [isChange, hb] at h
    · rename_i hb; simp [isChange, hb] at h
    · rename_i hb; simp [isChange, hb] at h
    · exact ⟨rfl, rfl⟩
    · exact ⟨rfl, rfl⟩

theorem cur_same (r : Record F) {l : List (Token × Role)} (h : ∀ m ∈ l, isChange m = false) : SameSet r (cur r l) := by
  induction l generalizing r with
  | nil => exact ⟨rfl, rfl⟩
  | cons m l ih =>
    have h1 := step_same r (h m (by simp))
    have h2 := ih (stepRec r m) fun x hx => h x (by simp [hx])
    exact ⟨h2.1.trans h1.1, h2.2.trans h1.2⟩

/-- A token giving speed and level that is not one of the wrongly typed cruise climbs. -/
def GoodNote (m : Token × Role) : Prop := m.1.base = .SPEED_ALTITUDE_ALTITUDE → m.1.sub ∉ ccBad

theorem step_change (r : Record F) {m : Token × Role} (hT : Typed m.1) (hg : m.2 = .note → GoodNote m) (h : isChange m = true) :
    Gives m.1 (stepRec r m).speed (stepRec r m).altitude := by
  obtain ⟨t, o⟩ := m
  cases o with
  | word | sid | star | slot => simp [isChange] at h
  | head =>
    have hb : t.base = .SPEED_VFR := by simpa [isChange] using h
    have hs : stepRec r (t, .head) = (Act.vfr t).newRec r := by simp [stepRec, hb]
    obtain ⟨_, h1, h2⟩ := vfr_facts hT hb
    rw [hs]
    refine ⟨h1, ?_⟩
    rw [hb]
    refine ⟨rfl, ?_⟩
    show t.text = spOf t.text ++ _
    rw [← h2]
    unfold spOf restOf
    split <;> exact (List.take_append_drop _ _).symm
  | note =>
    have hb : t.base = .SPEED_ALTITUDE ∨ t.base = .SPEED_ALTITUDE_ALTITUDE ∨ t.base = .SPEED_ALTITUDE_PLUS := by
      simpa [isChange] using h
    rcases hb with hb | hb | hb
    · have hs : stepRec r (t, .note) = (Act.level t).tweak r := by simp [stepRec, hb]
      obtain ⟨h1, h2, h3⟩ := level_facts hT hb
      rw [hs]
      refine ⟨h1, ?_⟩
      rw [hb]; exact ⟨h2, h3⟩
    · have hs : stepRec r (t, .note) = (Act.levels t).tweak r := by simp [stepRec, hb]
      obtain ⟨h1, h2, h3, _, h4⟩ := levels_facts hT hb (hg rfl hb)
      rw [hs]
      refine ⟨h1, ?_⟩
      rw [hb]; exact ⟨h2, _, h3, by rw [List.append_assoc]; exact h4⟩
    · have hs : stepRec r (t, .note) = (Act.plus t).tweak r := by simp [stepRec, hb]
      obtain ⟨h1, h2, h3, h4⟩ := plus_facts hT hb
      rw [hs]
      refine ⟨h1, ?_⟩
      rw [hb]; refine ⟨h2, ?_⟩
      rw [List.append_assoc]; rw [h3] at h4; exact h4

theorem final_set (r : Record F) (b after : List (Token × Role)) :
    SameSet (cur r (upTo b after)) (finalRec (cur r (b ++ about after)) after) := by
  unfold upTo finalRec
  cases after.dropWhile (!·.2.isElement) with
  | nil => dsimp only; rw [List.append_nil]; exact ⟨rfl, rfl⟩
  | cons m l =>
    dsimp only
    unfold closeRec
    split
    · rw [cur_append r _ [m]]; exact ⟨rfl, rfl⟩
    · rw [List.append_nil]; exact ⟨rfl, rfl⟩

theorem last_change_exists {l : List (Token × Role)} (h : ∃ m ∈ l, isChange m = true) : ∃ m, LastChange l m := by
  induction l with
  | nil => obtain ⟨m, h, _⟩ := h; cases h
  | cons x l ih =>
    by_cases hl : ∃ m ∈ l, isChange m = true
    · obtain ⟨m, a, b, rfl, h1, h2⟩ := ih hl
      exact ⟨m, x :: a, b, rfl, h1, h2⟩
    · obtain ⟨m, hm, hc⟩ := h
      rcases List.mem_cons.1 hm with rfl | hm
      · refine ⟨m, [], l, rfl, hc, fun y hy => ?_⟩
        cases hy' : isChange y with
        | false => rfl
        | true => exact absurd ⟨y, hy, hy'⟩ hl
      · exact absurd ⟨m, hm, hc⟩ hl

/-! ### Notes in accepted field 15s -/

theorem Well.good {p : Spot} {l : List (Token × Role)} (h : Well p l) : ∀ m ∈ l, m.2 = .note → GoodNote m := by
  induction h with
  | nil => intro m hm; cases hm
  | word _ ih | sid _ _ ih | point _ _ _ ih | plain _ _ _ ih | brk _ _ _ ih | slot _ _ ih =>
    intro m hm hn
    rcases List.mem_cons.1 hm with rfl | hm
    · cases hn
    · exact ih m hm hn
  | star => intro m hm hn; simp at hm; subst hm; cases hn
  | note _ hb _ _ ih =>
    intro m hm hn
    rcases List.mem_cons.1 hm with rfl | hm
    · intro h; dsimp only at h; simp [noteBases, h] at hb
    · exact ih m hm hn
  | slash hb _ ih =>
    intro m hm hn
    rcases List.mem_cons.1 hm with rfl | hm
    · intro h; dsimp only at h; simp [h] at hb
    · exact ih m hm hn
  | levels hb _ ih =>
    intro m hm hn
    rcases List.mem_cons.1 hm with rfl | hm
    · intro h; dsimp only at h; simp [h] at hb; exact hb
    · exact ih m hm hn

theorem WellAll.good {l : List (Token × Role)} (h : WellAll l) : ∀ m ∈ l, m.2 = .note → GoodNote m := by
  cases h with
  | ifr hb _ h =>
    intro m hm hn
    rcases List.mem_cons.1 hm with rfl | hm
    · intro h; rw [hb] at h; cases h
    · exact h.good m hm hn
  | vfr hb h =>
    intro m hm hn
    rcases List.mem_cons.1 hm with rfl | hm
    · cases hn
    · exact h.good m hm hn

/-! ### Rules -/

theorem step_rules {p : Spot} {m : Token × Role} {l : List (Token × Role)} (h : Well p (m :: l)) (hT : Typed m.1)
    (r : Record F) (hr : p ≠ .text → r.rules = py! "IFR") :
    (m.2.isElement = true → (stepRec r m).rules = elementRules m) ∧
    (m.2.isElement = false → (stepRec r m).rules = r.rules) ∧
    (nextSpot p m ≠ .text → (stepRec r m).rules = py! "IFR") := by
  have snote : ∀ t, r.rules = py! "IFR" → (stepRec r (t, .note)).rules = py! "IFR" := by
    intro t h0
    unfold stepRec
    dsimp only
    split
    · rfl
    · rfl
    · rfl
    · exact h0
    · exact h0
  cases h with
  | @word t l h =>
    have : (stepRec r (t, .word)).rules = r.rules := by
      show (r.appendBreakText t.text).rules = _
      unfold Record.appendBreakText; split <;> rfl
    exact ⟨fun h => by simp [Role.isElement] at h, fun _ => this, fun h => by simp [nextSpot] at h⟩
  | @note p t l hp hb ht h =>
    have h0 := hr (by rcases hp with rfl | rfl <;> simp)
    have := snote t h0
    exact ⟨fun h => by simp [Role.isElement] at h, fun _ => by rw [this, h0], fun _ => this⟩
  | @slash t l hb h =>
    have h0 := hr (by simp)
    have := snote t h0
    exact ⟨fun h => by simp [Role.isElement] at h, fun _ => by rw [this, h0], fun _ => this⟩
  | @levels t l hb h =>
    have h0 := hr (by simp)
    have := snote t h0
    exact ⟨fun h => by simp [Role.isElement] at h, fun _ => by rw [this, h0], fun _ => this⟩
  | @sid t l hb h =>
    have : (stepRec r (t, .sid)).rules = py! "IFR" := hr (by simp)
    exact ⟨fun _ => by rw [this]; simp [elementRules], fun h => by simp [Role.isElement] at h, fun _ => this⟩
  | @star p t hp hb =>
    have : (stepRec r (t, .star)).rules = py! "IFR" := hr (by rcases hp with rfl | rfl <;> simp)
    exact ⟨fun _ => by rw [this]; simp [elementRules], fun h => by simp [Role.isElement] at h, fun _ => this⟩
  | @slot p t l hp h =>
    have : (stepRec r (t, .slot)).rules = py! "IFR" := hr (by rcases hp with rfl | rfl <;> simp)
    exact ⟨fun _ => by rw [this]; simp [elementRules], fun h => by simp [Role.isElement] at h, fun _ => this⟩
  | @point p t l hp hb h =>
    have : (stepRec r (t, .head)).rules = py! "IFR" := by simp [stepRec, hb]; rfl
    exact ⟨fun _ => by rw [this]; simp [elementRules, hb], fun h => by simp [Role.isElement] at h, fun _ => this⟩
  | @plain p t l hp hb h =>
    have : (stepRec r (t, .head)).rules = py! "IFR" := by
      have h0 : (fresh r t).rules = py! "IFR" := hr (by rcases hp with rfl | rfl <;> simp)
      rcases hb with hb | hb | hb
      · simp [stepRec, hb]; rfl
      · simp [stepRec, hb]; exact h0
      · simp [stepRec, hb]; exact h0
    exact ⟨fun _ => by rw [this]; rcases hb with hb | hb | hb <;> simp [elementRules, hb], fun h => by simp [Role.isElement] at h, fun _ => this⟩
  | @brk p t l hp hb h =>
    have : (stepRec r (t, .head)).rules = elementRules (t, .head) := by
      rcases hb with hb | hb
      · simp only [stepRec, hb, elementRules]
        rcases break_sub hT hb with h | h | h <;> rw [h] <;> rfl
      · simp only [stepRec, hb, elementRules]; rfl
    refine ⟨fun _ => this, fun h => by simp [Role.isElement] at h, fun h => ?_⟩
    exfalso; apply h
    rcases hb with hb | hb <;> simp [nextSpot, hb]

theorem cur_rules {p : Spot} {a b : List (Token × Role)} (h : Well p (a ++ b)) (hT : ∀ m ∈ a, Typed m.1)
    (r : Record F) (hr : p ≠ .text → r.rules = py! "IFR") : spotAfter p a ≠ .text → (cur r a).rules = py! "IFR" := by
  induction a generalizing p r with
  | nil => exact hr
  | cons m a ih =>
    exact ih h.tail (fun x hx => hT x (by simp [hx])) (stepRec r m) (step_rules h (hT m (by simp)) r hr).2.2

/-- Notes and words do not change the rules. -/
theorem cur_rules_about {p : Spot} {a b : List (Token × Role)} (h : Well p (a ++ b)) (hT : ∀ m ∈ a, Typed m.1)
    (he : ∀ m ∈ a, m.2.isElement = false) (r : Record F) (hr : p ≠ .text → r.rules = py! "IFR") : (cur r a).rules = r.rules := by
  induction a generalizing p r with
  | nil => rfl
  | cons m a ih =>
    have hs := step_rules h (hT m (by simp)) r hr
    rw [cur_cons, ih h.tail (fun x hx => hT x (by simp [hx])) (fun x hx => he x (by simp [hx])) _ hs.2.2, hs.2.1 (he m (by simp))]


/-! ### Break text -/

theorem about_text {l : List (Token × Role)} (h : Well .text l) : ∀ m ∈ about l, m.2 = .word := by
  generalize hp : Spot.text = p at h
  induction h with
  | word h ih =>
    intro m hm
    simp only [about, List.takeWhile_cons, Role.isElement, Bool.not_false, if_true] at hm
    rcases List.mem_cons.1 hm with rfl | hm
    · rfl
    · exact ih rfl m hm
  | nil => intro m hm; cases hm
  | note ho => subst hp; rcases ho with h | h <;> cases h
  | sid => cases hp
  | star ho => subst hp; rcases ho with h | h <;> cases h
  | slot ho => subst hp; rcases ho with h | h <;> cases h
  | slash | levels => cases hp
  | point | plain | brk => intro m hm; simp [about, Role.isElement] at hm

theorem about_notes {p : Spot} {l : List (Token × Role)} (h : Well p l) (hp : p ≠ .text) : ∀ m ∈ about l, m.2 = .note := by
  induction h with
  | word => exact absurd rfl hp
  | nil => intro m hm; cases hm
  | note _ _ _ _ ih =>
    intro m hm
    simp only [about, List.takeWhile_cons, Role.isElement, Bool.not_false, if_true] at hm
    rcases List.mem_cons.1 hm with rfl | hm
    · rfl
    · exact ih (by simp) m hm
  | slash _ _ ih | levels _ _ ih =>
    intro m hm
    simp only [about, List.takeWhile_cons, Role.isElement, Bool.not_false, if_true] at hm
    rcases List.mem_cons.1 hm with rfl | hm
    · rfl
    · exact ih (by simp) m hm
  | sid | star | slot | point | plain | brk => intro m hm; simp [about, Role.isElement] at hm

theorem note_break (r : Record F) (t : Token) : (stepRec r (t, .note)).breakText = r.breakText := by
  unfold stepRec
  dsimp only
  split <;> rfl

theorem cur_break_notes (r : Record F) {l : List (Token × Role)} (h : ∀ m ∈ l, m.2 = .note) : (cur r l).breakText = r.breakText := by
  induction l generalizing r with
  | nil => rfl
  | cons m l ih =>
    obtain ⟨t, o⟩ := m
    have : o = .note := h (t, o) (by simp)
    subst this
    rw [cur_cons, ih _ fun x hx => h x (by simp [hx]), note_break]

theorem joined_cons (m : Token × Role) (l : List (Token × Role)) (hl : l ≠ []) : joined (m :: l) = m.1.text ++ ' ' :: joined l := by
  cases l with
  | nil => exact absurd rfl hl
  | cons x l => simp [joined, List.intersperse]

theorem cur_break_words (r : Record F) {l : List (Token × Role)} (h : ∀ m ∈ l, m.2 = .word) (ht : ∀ m ∈ l, m.1.text ≠ []) :
    (cur r l).breakText = if l = [] then r.breakText else if r.breakText = [] then joined l else r.breakText ++ ' ' :: joined l := by
  induction l generalizing r with
  | nil => rfl
  | cons m l ih =>
    obtain ⟨t, o⟩ := m
    have : o = .word := h (t, o) (by simp)
    subst this
    rw [cur_cons, ih _ (fun x hx => h x (by simp [hx])) fun x hx => ht x (by simp [hx])]
    have hn : t.text ≠ [] := ht (t, .word) (by simp)
    have hs : (stepRec r (t, .word)).breakText = if r.breakText = [] then t.text else r.breakText ++ ' ' :: t.text := by
      show (r.appendBreakText t.text).breakText = _
      unfold Record.appendBreakText; split <;> rfl
    have hj : joined [(t, Role.word)] = t.text := by simp [joined]
    rw [hs, if_neg (by simp : ((t, Role.word) :: l) ≠ [])]
    by_cases hb : r.breakText = []
    · rw [if_pos hb, if_pos hb]
      by_cases hl : l = []
      · subst hl; rw [if_pos rfl, hj]
      · rw [if_neg hl, if_neg hn, joined_cons _ _ hl]
    · rw [if_neg hb, if_neg hb]
      by_cases hl : l = []
      · subst hl; rw [if_pos rfl, hj]
      · rw [if_neg hl, if_neg (by simp), joined_cons _ _ hl]; simp

/-! ### Cruise-to level -/

theorem about_open {p : Spot} {l : List (Token × Role)} (h : Well p l) (hp : p.Open) : ∀ m ∈ about l, m.2 = .note ∧ m.1.base ∈ noteBases := by
  induction h with
  | word => rcases hp with h | h <;> cases h
  | nil => intro m hm; cases hm
  | note _ hb _ _ ih =>
    intro m hm
    simp only [about, List.takeWhile_cons, Role.isElement, Bool.not_false, if_true] at hm
    rcases List.mem_cons.1 hm with rfl | hm
    · exact ⟨rfl, hb⟩
    · exact ih (.inr rfl) m hm
  | slash | levels => rcases hp with h | h <;> cases h
  | sid | star | slot | point | plain | brk => intro m hm; simp [about, Role.isElement] at hm

theorem cur_cruise (r : Record F) {l : List (Token × Role)} (h : ∀ m ∈ l, m.2 = .note → m.1.base ∈ noteBases)
    (he : ∀ m ∈ l, m.2.isElement = false) : (cur r l).cruiseTo = r.cruiseTo ∧ (cur r l).cruiseToSi = r.cruiseToSi := by
  induction l generalizing r with
  | nil => exact ⟨rfl, rfl⟩
  | cons m l ih =>
    obtain ⟨t, o⟩ := m
    have h1 := ih (stepRec r (t, o)) (fun x hx => h x (by simp [hx])) fun x hx => he x (by simp [hx])
    have : (stepRec r (t, o)).cruiseTo = r.cruiseTo ∧ (stepRec r (t, o)).cruiseToSi = r.cruiseToSi := by
      cases o with
      | word =>
        show (r.appendBreakText t.text).cruiseTo = _ ∧ (r.appendBreakText t.text).cruiseToSi = _
        unfold Record.appendBreakText; split <;> exact ⟨rfl, rfl⟩
      | note =>
        have hb : t.base ∈ noteBases := h (t, .note) (by simp) rfl
        unfold stepRec
        dsimp only
        split
        · exact ⟨rfl, rfl⟩
        · rename_i h; simp [h, noteBases] at hb
        · rename_i h; simp [h, noteBases] at hb
        · exact ⟨rfl, rfl⟩
        · exact ⟨rfl, rfl⟩
      | _ => have := he _ (List.mem_cons_self ..); cases this
    rw [cur_cons]
    exact ⟨h1.1.trans this.1, h1.2.trans this.2⟩

/-! ### Stay -/

theorem note_stay (r : Record F) {m : Token × Role} (he : m.2.isElement = false) :
    (stepRec r m).stayTime = if m.2 = .note ∧ m.1.base = .STAY_TIME then stayVal m.1.text else r.stayTime := by
  obtain ⟨t, o⟩ := m
  cases o with
  | word =>
    show (r.appendBreakText t.text).stayTime = _
    unfold Record.appendBreakText; split <;> rfl
  | note =>
    unfold stepRec
    dsimp only
    split
    · rename_i h; simp [h]; rfl
    · rename_i h; simp [h]; rfl
    · rename_i h; simp [h]; rfl
    · rename_i h; simp [h]; rfl
    · rename_i h1 h2 h3 h4; rw [if_neg]; rintro ⟨_, h⟩; exact h4 h
  | _ => cases he


/-! ### The element a token belongs to -/

theorem last_element (l : List (Token × Role)) : (∀ m ∈ l, m.2.isElement = false) ∨
    ∃ a m b, l = a ++ m :: b ∧ m.2.isElement = true ∧ ∀ x ∈ b, x.2.isElement = false := by
  induction l with
  | nil => left; intro m h; cases h
  | cons x l ih =>
    rcases ih with h | ⟨a, m, b, rfl, h1, h2⟩
    · cases hx : x.2.isElement with
      | true => right; exact ⟨[], x, l, rfl, hx, h⟩
      | false =>
        left; intro m hm
        rcases List.mem_cons.1 hm with rfl | hm
        · exact hx
        · exact h m hm
    · right; exact ⟨x :: a, m, b, rfl, h1, h2⟩

theorem about_append {b l : List (Token × Role)} (h : ∀ x ∈ b, x.2.isElement = false) : about (b ++ l) = b ++ about l := by
  induction b with
  | nil => rfl
  | cons x b ih =>
    have hx := h x (by simp)
    have := ih fun y hy => h y (by simp [hy])
    unfold about at this ⊢
    rw [List.cons_append, List.takeWhile_cons, hx]
    simp [this]

theorem final_append (r : Record F) {b l : List (Token × Role)} (h : ∀ x ∈ b, x.2.isElement = false) :
    finalRec r (b ++ l) = finalRec r l := by
  induction b with
  | nil => rfl
  | cons x b ih =>
    have hx := h x (by simp)
    have := ih fun y hy => h y (by simp [hy])
    unfold finalRec at this ⊢
    rw [List.cons_append, List.dropWhile_cons, hx]
    exact this

theorem count_zero {l : List (Token × Role)} (h : ∀ x ∈ l, x.2.isElement = false) : elementCount l = 0 := by
  unfold elementCount
  rw [List.filter_eq_nil_iff.2 fun x hx => by simp [h x hx]]; rfl

theorem count_append (a b : List (Token × Role)) : elementCount (a ++ b) = elementCount a + elementCount b := by
  simp [elementCount]

theorem count_cons_el {m : Token × Role} (l : List (Token × Role)) (h : m.2.isElement = true) : elementCount (m :: l) = elementCount l + 1 := by
  simp [elementCount, h]

theorem count_cons_not {m : Token × Role} (l : List (Token × Role)) (h : m.2.isElement = false) : elementCount (m :: l) = elementCount l := by
  simp [elementCount, h]

/-- The element that the reader is at after reading `pre`. -/
theorem Told.owner {ts : List Token} {e : Ers F} (h : Told ts e) {pre after : List (Token × Role)} (hr : roles ts = pre ++ after) :
    ∃ r, e.elements[elementCount pre]? = some r ∧ ∃ f : Record F → Record F,
      (f = id ∨ f = toVfr ∧ elementCount pre = 0) ∧
      unplace r = f (finalRec (cur newAdep (pre ++ about after)) after) := by
  rcases last_element pre with hp | ⟨a, m, b, rfl, hm, hb⟩
  · obtain ⟨t, r, _, h1, h2⟩ := h.adep
    rw [count_zero hp]
    refine ⟨r, h1, _, ?_, by rw [h2, hr, about_append hp, final_append _ hp]⟩
    split
    · right; exact ⟨rfl, rfl⟩
    · left; rfl
  · rw [List.append_assoc, List.cons_append] at hr
    obtain ⟨r, h1, h2⟩ := h.elem a m (b ++ after) hr hm
    rw [count_append, count_cons_el _ hm, count_zero hb]
    refine ⟨r, h1, id, .inl rfl, ?_⟩
    rw [h2, about_append hb, final_append _ hb]
    simp

end F15
