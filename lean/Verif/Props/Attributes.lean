import Verif.Props.Accepted
/-!
# Attributes of the elements of an accepted field 15: C26, C37, C38, C39, C40, C42, C45
-/

namespace F15
open Spec

set_option linter.unusedSectionVars false
variable {F : Type} [PyFloat F]

theorem Told.allTyped {ts : List Token} {e : Ers F} (h : Told ts e) : ∀ m ∈ roles ts, Typed m.1 := by
  intro m hm
  apply h.typed
  have : m.1 ∈ (roles ts).map (·.1) := List.mem_map.2 ⟨m, hm, rfl⟩
  rw [roles_tokens] at this
  exact this

theorem about_subset {l : List (Token × Role)} {m : Token × Role} (h : m ∈ about l) : m ∈ l := (List.takeWhile_sublist _).subset h

theorem upTo_subset {b after : List (Token × Role)} {m : Token × Role} (h : m ∈ upTo b after) : m ∈ b ++ after := by
  unfold upTo at h
  rcases List.mem_append.1 h with h | h
  · rcases List.mem_append.1 h with h | h
    · exact List.mem_append.2 (.inl h)
    · exact List.mem_append.2 (.inr (about_subset h))
  · refine List.mem_append.2 (.inr ?_)
    have hd : ∀ x ∈ after.dropWhile (!·.2.isElement), x ∈ after := fun x hx => (List.dropWhile_sublist _).subset hx
    cases hs : after.dropWhile (!·.2.isElement) with
    | nil => rw [hs] at h; cases h
    | cons x l =>
      rw [hs] at h hd
      dsimp only at h
      split at h
      · simp only [List.mem_singleton] at h; subst h; exact hd _ (by simp)
      · cases h

/-- The speed and level of the current element. -/
theorem owner_set {ts : List Token} {e : Ers F} (h : Told ts e) {before after : List (Token × Role)} (hr : roles ts = before ++ after) :
    ∃ r, e.elements[elementCount before]? = some r ∧ SameSet (cur newAdep (upTo before after)) r := by
  obtain ⟨r, h1, f, hf, h2⟩ := h.owner hr
  refine ⟨r, h1, ?_⟩
  have hs := final_set (newAdep (F := F)) before after
  have : SameSet (finalRec (cur (F := F) newAdep (before ++ about after)) after) (unplace r) := by
    rw [h2]
    rcases hf with rfl | ⟨rfl, _⟩ <;> exact ⟨rfl, rfl⟩
  exact ⟨(show r.speed = (unplace r).speed from rfl).trans (this.1.trans hs.1),
    (show r.altitude = (unplace r).altitude from rfl).trans (this.2.trans hs.2)⟩

/-! ### C26 -/

/-- The numbers do not matter. -/
theorem c26_lawful {tokens : Tokens} {e : Ers F} (h : Lawful tokens e)
    {before after : List (Token × Role)} (hr : roles (typedTokens tokens) = before ++ after) :
    ∃ r m, e.elements[elementCount before]? = some r ∧ LastChange (upTo before after) m ∧ Gives m.1 r.speed r.altitude := by
  have ht := told h
  obtain ⟨r, h1, h2⟩ := owner_set ht hr
  have hex : ∃ m, LastChange (upTo before after) m := by
    apply last_change_exists
    have hw := ht.well
    cases before with
    | nil =>
      rw [hr, List.nil_append] at hw
      cases hw with
      | @ifr t l hb hne h =>
        refine ⟨(t, .note), ?_, by simp [isChange, hb]⟩
        unfold upTo
        have hab : about ((t, .note) :: l) = (t, .note) :: about l := about_append (b := [(t, .note)]) (by simp [Role.isElement])
        simp [hab]
      | @vfr t l hb h =>
        refine ⟨(t, .head), ?_, by simp [isChange, hb]⟩
        unfold upTo
        simp [about, Role.isElement, hb]
    | cons x before =>
      rw [hr, List.cons_append] at hw
      refine ⟨x, by simp [upTo], ?_⟩
      cases hw with
      | ifr hb => simp [isChange, hb]
      | vfr hb => simp [isChange, hb]
  obtain ⟨m, a, b, hab, hm, hb⟩ := hex
  refine ⟨r, m, h1, ⟨a, b, hab, hm, hb⟩, ?_⟩
  have hmem : m ∈ roles (typedTokens tokens) := by
    rw [hr]; apply upTo_subset; rw [hab]; simp
  have hc := step_change (cur (F := F) newAdep a) (ht.allTyped m hmem) (ht.well.good m hmem) hm
  have hs := cur_same (stepRec (cur (F := F) newAdep a) m) hb
  rw [hab, cur_append, cur_cons] at h2
  rw [h2.1, h2.2, hs.1, hs.2]
  exact hc

/-- **C26** In an accepted field 15, the element read last when `before` has been read (index 0 is the ADEP) has the speed and level
given by the last token giving them up to the end of what is said about this element, including a SPEED/VFR that is the next element. -/
theorem c26 {frames : Nat} {tokens : Tokens} {e : Ers F} (h : parseF15 frames Ers.new tokens = .ok (true, e))
    {before after : List (Token × Role)} (hr : roles (typedTokens tokens) = before ++ after) :
    ∃ r m, e.elements[elementCount before]? = some r ∧ LastChange (upTo before after) m ∧ Gives m.1 r.speed r.altitude :=
  c26_lawful (lawful h) hr

/-- The ADES has neither speed nor level. -/
theorem c26_ades {frames : Nat} {tokens : Tokens} {e : Ers F} (h : parseF15 frames Ers.new tokens = .ok (true, e)) :
    ∃ r, e.elements[elementCount (roles (typedTokens tokens)) + 1]? = some r ∧ r.speed = [] ∧ r.altitude = [] := by
  obtain ⟨r, l, h1, _, h3⟩ := (told (lawful h)).ades
  exact ⟨r, h1, by rw [h3]; rfl, by rw [h3]; rfl⟩

/-- Each pair of speed and level of a sample. -/
example : check (py! "N0450F350 AAA BBB/K0500S0800 DCT CCC/M080VFR DDD") (fun b e => b && decide (e.elements.map (fun r => (r.speed, r.altitude)) =
    [(py! "N0450", py! "F350"), (py! "N0450", py! "F350"), (py! "K0500", py! "S0800"), (py! "K0500", py! "S0800"),
     (py! "M080", py! "F050"), (py! "M080", py! "F050"), ([], [])])) = true := by decide +kernel

/-! ### C38 -/

theorem text_next {l : List (Token × Role)} (h : Well .text l) : ∀ x r, l.dropWhile (!·.2.isElement) = x :: r → x.1.base = .POINT := by
  generalize hp : Spot.text = p at h
  induction h with
  | word h ih => intro x r; simp only [List.dropWhile_cons, Role.isElement, Bool.not_false, if_true]; exact ih rfl x r
  | nil => intro x r h; cases h
  | note ho => subst hp; rcases ho with h | h <;> cases h
  | sid => cases hp
  | star ho => subst hp; rcases ho with h | h <;> cases h
  | slot ho => subst hp; rcases ho with h | h <;> cases h
  | slash | levels => cases hp
  | point ho hb =>
    intro x r h
    simp only [List.dropWhile_cons, Role.isElement, Bool.not_true, Bool.false_eq_true, if_false, List.cons.injEq] at h
    rw [← h.1]; exact hb
  | plain ho => subst hp; rcases ho with h | h <;> cases h
  | brk ho => subst hp; rcases ho with h | h <;> cases h

/-- What follows the start of free text. -/
theorem well_text {ts : List Token} (hw : WellAll (roles ts)) {before after : List (Token × Role)} {m : Token × Role}
    (hr : roles ts = before ++ m :: after) (hm : startsText m = true) : Well .text after := by
  obtain ⟨t, o⟩ := m
  have ho : o = .head ∧ (t.base = .BREAK_START ∨ t.base = .SPEED_VFR) := by simpa [startsText] using hm
  obtain ⟨rfl, hb⟩ := ho
  cases before with
  | nil =>
    rw [hr] at hw
    cases hw with
    | vfr _ h => exact h
  | cons x before =>
    rw [hr, List.cons_append] at hw
    obtain ⟨p, h, _⟩ := well_tail_all hw
    have := h.drop.tail
    have hn : ∀ q, nextSpot q (t, .head) = .text := by intro q; rcases hb with hb | hb <;> simp [nextSpot, hb]
    rw [hn] at this
    exact this

/-- What follows any other element. -/
theorem well_route {ts : List Token} (hw : WellAll (roles ts)) {before after : List (Token × Role)} {m : Token × Role}
    (hr : roles ts = before ++ m :: after) (he : m.2.isElement = true) (hm : startsText m = false) :
    Well (if m.2 = .slot then .slash else .route) after := by
  obtain ⟨t, o⟩ := m
  cases before with
  | nil =>
    rw [hr] at hw
    cases hw with
    | ifr => cases he
    | vfr hb => simp [startsText, hb] at hm
  | cons x before =>
    rw [hr, List.cons_append] at hw
    obtain ⟨p, h, _⟩ := well_tail_all hw
    have := h.drop.tail
    have hn : ∀ q, nextSpot q (t, o) = if o = .slot then .slash else .route := by
      intro q
      cases o with
      | word | note => cases he
      | head =>
        have : ¬ (t.base = .BREAK_START ∨ t.base = .SPEED_VFR) := by simpa [startsText] using hm
        simp [nextSpot, this]
      | _ => simp [nextSpot]
    rw [hn] at this
    exact this

/-- **C38** In an accepted field 15 a SPEED/VFR gives a VFR element of that speed and level F050, and the element before it has the
same speed and level; if it is the first token this is the ADEP, which is VFR. -/
theorem c38 {frames : Nat} {tokens : Tokens} {e : Ers F} (h : parseF15 frames Ers.new tokens = .ok (true, e))
    {before after : List (Token × Role)} {t : Token} (hr : roles (typedTokens tokens) = before ++ (t, .head) :: after)
    (hb : t.base = .SPEED_VFR) :
    ∃ r p, e.elements[elementCount before + 1]? = some r ∧ e.elements[elementCount before]? = some p ∧
      r.name = py! "VFR" ∧ r.rules = py! "VFR" ∧ Speed r.speed ∧ t.text = r.speed ++ py! "VFR" ∧ r.altitude = py! "F050" ∧
      p.speed = r.speed ∧ p.altitude = r.altitude ∧ (before = [] → p.rules = py! "VFR") := by
  have ht := told (lawful h)
  obtain ⟨r, h1, h2⟩ := (c46 h).2 before _ after hr rfl
  obtain ⟨r', h1', h3⟩ := (c25_accepted h).1 before _ after hr rfl
  rw [h1] at h1'; cases h1'
  obtain ⟨p, k1, k2⟩ := owner_set ht hr
  have hr2 : roles (typedTokens tokens) = (before ++ [(t, .head)]) ++ after := by simp [hr]
  obtain ⟨r', h4, h5⟩ := owner_set ht hr2
  have hc1 : elementCount (before ++ [(t, .head)]) = elementCount before + 1 := by rw [count_append]; rfl
  rw [hc1, h1] at h4; cases h4
  have hmem : (t, Role.head) ∈ roles (typedTokens tokens) := by rw [hr]; simp
  have hchg : isChange (t, .head) = true := by simp [isChange, hb]
  have hw := well_text ht.well hr (by simp [startsText, hb])
  have hg := step_change (cur (F := F) newAdep before) (ht.allTyped _ hmem) (by intro h; cases h) hchg
  -- the element before
  have e1 : upTo before ((t, .head) :: after) = before ++ [(t, .head)] := by
    unfold upTo
    simp [about, Role.isElement, hb]
  rw [e1, cur_append, cur_cons] at k2
  -- the element itself
  have e2 : SameSet (stepRec (cur (F := F) newAdep before) (t, .head)) r := by
    have hx : upTo (before ++ [(t, .head)]) after = before ++ (t, .head) :: about after := by
      unfold upTo
      cases hd : after.dropWhile (!·.2.isElement) with
      | nil => simp
      | cons x l =>
        have := text_next hw x l hd
        simp [this]
    rw [hx, cur_append, cur_cons] at h5
    have hs := cur_same (stepRec (cur (F := F) newAdep before) (t, .head)) (l := about after) (by
      intro y hy
      have := about_text hw y hy
      obtain ⟨y1, y2⟩ := y
      dsimp only at this
      subst this; rfl)
    exact ⟨h5.1.trans hs.1, h5.2.trans hs.2⟩
  unfold Gives at hg
  rw [hb] at hg
  refine ⟨r, p, h1, k1, ?_, ?_, ?_, ?_, ?_, ?_, ?_, ?_⟩
  · rw [h2.2.2.1]; simp [hb]
  · rw [h3]; simp [elementRules, hb]
  · rw [e2.1]; exact hg.1
  · rw [e2.1]; exact hg.2.2
  · rw [e2.2]; exact hg.2.1
  · rw [e2.1]; exact k2.1
  · rw [e2.2]; exact k2.2
  · rintro rfl
    obtain ⟨_, ⟨t', r', g1, g2, g3⟩, _⟩ := c25_accepted h
    rw [show e.elements[elementCount ([] : List (Token × Role))]? = e.elements[0]? from rfl, g2] at k1
    cases k1
    have htk := congrArg (List.map (·.1)) hr
    rw [roles_tokens] at htk
    rw [htk] at g1
    cases g1
    rw [g3, if_pos hb]

/-! ### C39 -/

/-- The numbers do not matter. -/
theorem c39_lawful {tokens : Tokens} {e : Ers F} (h : Lawful tokens e)
    (hne : ∀ t ∈ tokens.toks, t.text ≠ []) :
    (∀ before m after, roles (typedTokens tokens) = before ++ m :: after → m.2.isElement = true →
      ∃ r, e.elements[elementCount before + 1]? = some r ∧
        (startsText m = true → r.breakText = joined (about after) ∧ ∀ x ∈ about after, x.2 = .word) ∧
        (startsText m = false → r.breakText = [] ∧ ∀ x ∈ about after, x.2 = .note)) ∧
    (∃ r, e.elements[0]? = some r ∧ r.breakText = [] ∧ ∀ x ∈ about (roles (typedTokens tokens)), x.2 = .note) ∧
    (∃ r, e.elements[elementCount (roles (typedTokens tokens)) + 1]? = some r ∧ r.breakText = []) := by
  have ht := told h
  have htx : ∀ m ∈ roles (typedTokens tokens), m.1.text ≠ [] := by
    intro m hm
    have : m.1 ∈ (roles (typedTokens tokens)).map (·.1) := List.mem_map.2 ⟨m, hm, rfl⟩
    rw [roles_tokens] at this
    obtain ⟨t, h1, h2⟩ := List.mem_map.1 this
    rw [← h2, assignSyntax_eq]
    split <;> exact hne t h1
  refine ⟨fun before m after hr hm => ?_, ?_, ?_⟩
  · obtain ⟨r, h1, h2⟩ := ht.elem before m after hr hm
    have hb : r.breakText = (cur (stepRec (cur (F := F) newAdep before) m) (about after)).breakText := by
      have : r.breakText = (unplace r).breakText := rfl
      rw [this, h2, (final_fields _ _).2.2.2.2.2.2.1, cur_append, cur_cons]
    have h0 := (step_element (cur (F := F) newAdep before) hm).2.2.2.2.2.1
    refine ⟨r, h1, fun hs => ?_, fun hs => ?_⟩
    · have hw := about_text (well_text ht.well hr hs)
      refine ⟨?_, hw⟩
      rw [hb, cur_break_words _ hw (fun x hx => htx x (by rw [hr]; simp [about_subset hx])), h0]
      split
      · rename_i h; rw [h]; rfl
      · rfl
    · have hw := well_route ht.well hr hm hs
      have hn : ∀ x ∈ about after, x.2 = .note := about_notes hw (by split <;> simp)
      exact ⟨by rw [hb, cur_break_notes _ hn, h0], hn⟩
  · obtain ⟨t, r, _, h1, h2⟩ := ht.adep
    have hn : ∀ x ∈ about (roles (typedTokens tokens)), x.2 = .note := by
      have hw := ht.well
      cases hro : roles (typedTokens tokens) with
      | nil => intro x hx; cases hx
      | cons m l =>
        rw [hro] at hw
        cases hw with
        | @ifr t l hb hne h =>
          have hab : about ((t, .note) :: l) = (t, .note) :: about l := about_append (b := [(t, .note)]) (by simp [Role.isElement])
          rw [hab]
          intro x hx
          rcases List.mem_cons.1 hx with hx | hx
          · subst hx; rfl
          · exact about_notes h (by simp) x hx
        | vfr => intro x hx; simp [about, Role.isElement] at hx
    refine ⟨r, h1, ?_, hn⟩
    have : r.breakText = (unplace r).breakText := rfl
    rw [this, h2]
    have hf : ∀ x : Record F, ((if t.base = .SPEED_VFR then toVfr else id) x).breakText = x.breakText := by intro x; split <;> rfl
    rw [hf, (final_fields _ _).2.2.2.2.2.2.1, cur_break_notes _ hn]; rfl
  · obtain ⟨r, l, h1, _, h3⟩ := ht.ades
    exact ⟨r, h1, by rw [h3]; rfl⟩

/-- **C39** In an accepted field 15 whose tokens have non-empty texts (as the tokenizer's have, C01), the break text of the element of VFR, OAT,
IFPSTOP or SPEED/VFR consists of the texts of the words up to the next element, joined by single spaces; all other elements, the
ADEP and the ADES have none, and no words follow them. -/
theorem c39 {frames : Nat} {tokens : Tokens} {e : Ers F} (h : parseF15 frames Ers.new tokens = .ok (true, e))
    (hne : ∀ t ∈ tokens.toks, t.text ≠ []) :
    (∀ before m after, roles (typedTokens tokens) = before ++ m :: after → m.2.isElement = true →
      ∃ r, e.elements[elementCount before + 1]? = some r ∧
        (startsText m = true → r.breakText = joined (about after) ∧ ∀ x ∈ about after, x.2 = .word) ∧
        (startsText m = false → r.breakText = [] ∧ ∀ x ∈ about after, x.2 = .note)) ∧
    (∃ r, e.elements[0]? = some r ∧ r.breakText = [] ∧ ∀ x ∈ about (roles (typedTokens tokens)), x.2 = .note) ∧
    (∃ r, e.elements[elementCount (roles (typedTokens tokens)) + 1]? = some r ∧ r.breakText = []) :=
  c39_lawful (lawful h) hne

end F15
