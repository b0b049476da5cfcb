import Verif.Props.Attributes
import Verif.Props.Elements
/-!
# Cruise climbs, stays, and what becomes of each token of an accepted field 15: C37, C40, C42, C45
-/

namespace F15
open Spec

set_option linter.unusedSectionVars false
variable {F : Type} [PyFloat F]

theorem last_change_unique {l : List (Token × Role)} {m m' : Token × Role} (h : LastChange l m) (h' : LastChange l m') : m = m' := by
  obtain ⟨a, b, rfl, hm, hb⟩ := h
  obtain ⟨a', b', heq, hm', hb'⟩ := h'
  rcases List.append_eq_append_iff.1 heq with ⟨c, h1, h2⟩ | ⟨c, h1, h2⟩
  · cases c with
    | nil => simp at h2; exact h2.1
    | cons x c =>
      simp only [List.cons_append, List.cons.injEq] at h2
      have := hb m' (by rw [h2.2]; simp)
      rw [this] at hm'; cases hm'
  · cases c with
    | nil => simp at h2; exact h2.1.symm
    | cons x c =>
      simp only [List.cons_append, List.cons.injEq] at h2
      have := hb' m (by rw [h2.2]; simp)
      rw [this] at hm; cases hm

/-- What follows the point of a cruise climb. -/
theorem slot_next {ts : List Token} (hw : WellAll (roles ts)) {before after : List (Token × Role)} {p : Token}
    (hr : roles ts = before ++ (p, .slot) :: after) :
    ∃ s l rest, after = (s, .note) :: (l, .note) :: rest ∧ s.base = .SLASH ∧
      (l.base = .SPEED_ALTITUDE_ALTITUDE ∧ l.sub ∉ ccBad ∨ l.base = .SPEED_ALTITUDE_PLUS) ∧ Well .route rest := by
  have h := well_route hw hr rfl rfl
  rw [if_pos rfl] at h
  cases h with
  | nil hp => rcases hp with (h | h) | h <;> cases h
  | note hp => rcases hp with h | h <;> cases h
  | star hp => rcases hp with h | h <;> cases h
  | slot hp => rcases hp with h | h <;> cases h
  | point hp => rcases hp with (h | h) | h <;> cases h
  | plain hp => rcases hp with h | h <;> cases h
  | brk hp => rcases hp with h | h <;> cases h
  | @slash s l1 hb h =>
    cases h with
    | nil hp => rcases hp with (h | h) | h <;> cases h
    | note hp => rcases hp with h | h <;> cases h
    | star hp => rcases hp with h | h <;> cases h
    | slot hp => rcases hp with h | h <;> cases h
    | point hp => rcases hp with (h | h) | h <;> cases h
    | plain hp => rcases hp with h | h <;> cases h
    | brk hp => rcases hp with h | h <;> cases h
    | @levels t l2 hl h => exact ⟨s, t, l2, rfl, hb, hl, h⟩

theorem elem_cruise {ts : List Token} {e : Ers F} (ht : Told ts e) {before after : List (Token × Role)} {m : Token × Role}
    (hr : roles ts = before ++ m :: after) (hm : m.2.isElement = true) :
    ∃ r, e.elements[elementCount before + 1]? = some r ∧
      r.cruiseTo = (cur (stepRec (cur (F := F) newAdep before) m) (about after)).cruiseTo ∧
      r.cruiseToSi = (cur (stepRec (cur (F := F) newAdep before) m) (about after)).cruiseToSi ∧
      r.stayTime = (cur (stepRec (cur (F := F) newAdep before) m) (about after)).stayTime := by
  obtain ⟨r, h1, h2⟩ := ht.elem before m after hr hm
  have hf := final_fields (cur (F := F) newAdep (before ++ m :: about after)) after
  rw [← h2, cur_append, cur_cons] at hf
  exact ⟨r, h1, hf.2.2.2.2.2.2.2.2.1, hf.2.2.2.2.2.2.2.2.2, hf.2.2.2.2.2.2.2.1⟩

/-! ### C37 -/

/-- **C37 (partial)** In an accepted field 15 the point of a cruise climb is followed by `/` and the levels `l`. Its element has the
speed and the (first) level of `l` unless they are changed again before the next element. For LEVEL PLUS the cruise-to text is `PLUS`.
For a speed in km/h or knots and a first level in hundreds of feet, the cruise-to text is the second level, and its SI value is the
one computed for that level. Missing: in all other cases the cruise-to text is the second level without its unit (`c37_false`). -/
theorem c37_partial {frames : Nat} {tokens : Tokens} {e : Ers F} (h : parseF15 frames Ers.new tokens = .ok (true, e))
    {before after : List (Token × Role)} {p : Token} (hr : roles (typedTokens tokens) = before ++ (p, .slot) :: after) :
    ∃ s l rest r, after = (s, .note) :: (l, .note) :: rest ∧ s.text = py! "/" ∧
      e.elements[elementCount before + 1]? = some r ∧ RoleElement (p, .slot) r ∧
      (LastChange (upTo (before ++ [(p, .slot)]) after) (l, .note) → Gives l r.speed r.altitude) ∧
      ((∃ a b, Speed a ∧ Level b ∧ l.text = a ++ b ++ py! "PLUS" ∧ r.cruiseTo = py! "PLUS") ∨
       (∃ a b c, Speed a ∧ Level b ∧ Level c ∧ l.text = a ++ b ++ c ∧
        (UnitDigits ['K', 'N'] 4 a ∧ UnitDigits ['F', 'A'] 3 b → r.cruiseTo = c ∧ r.cruiseToSi = levelSi F c) ∧
        (¬ (UnitDigits ['K', 'N'] 4 a ∧ UnitDigits ['F', 'A'] 3 b) → r.cruiseTo = c.drop 1))) := by
  have ht := told (lawful h)
  obtain ⟨s, l, rest, rfl, hs, hl, hw⟩ := slot_next ht.well hr
  obtain ⟨r, h1, hc, hcs, _⟩ := elem_cruise ht hr rfl
  obtain ⟨r', h1', hel⟩ := (c46 h).2 before _ _ hr rfl
  rw [h1] at h1'; cases h1'
  have hall := ht.allTyped
  rw [hr] at hall
  have hTs : Typed s := hall (s, .note) (by simp)
  have hTl : Typed l := hall (l, .note) (by simp)
  have hab : about ((s, Role.note) :: (l, .note) :: rest) = (s, .note) :: (l, .note) :: about rest :=
    about_append (b := [(s, .note), (l, .note)]) (by simp [Role.isElement])
  have hopen := about_open hw (.inr rfl)
  have hcur := cur_cruise (stepRec (stepRec (stepRec (cur (F := F) newAdep before) (p, .slot)) (s, .note)) (l, .note))
    (l := about rest) (fun m hm _ => (hopen m hm).2) (fun m hm => about_not hm)
  rw [hab, cur_cons, cur_cons] at hc hcs
  rw [hcur.1] at hc
  rw [hcur.2] at hcs
  refine ⟨s, l, rest, r, rfl, ?_, h1, hel, ?_, ?_⟩
  · exact (c10_keywords s.text).1.1 (by rw [typed_types hTs (by rw [hs]; decide), hs])
  · intro hlc
    have hr2 : roles (typedTokens tokens) = (before ++ [(p, .slot)]) ++ ((s, .note) :: (l, .note) :: rest) := by simp [hr]
    obtain ⟨r', m, k1, k2, k3⟩ := c26 h hr2
    have hcn : elementCount (before ++ [(p, .slot)]) = elementCount before + 1 := by rw [count_append]; rfl
    rw [hcn, h1] at k1; cases k1
    rw [last_change_unique k2 hlc] at k3; exact k3
  · rcases hl with ⟨hb, hbad⟩ | hb
    · right
      obtain ⟨f1, f2, f3, _, f4⟩ := levels_facts hTl hb hbad
      have f4' : l.text = spOf l.text ++ lv1Of l.text ++ tailOf l.text := by rw [List.append_assoc]; exact f4
      have hx := (level_split f4' f1 f2).2.2
      have hst : ∀ q : Record F, stepRec q (l, .note) = (Act.levels l).tweak q := by intro q; simp [stepRec, hb]
      rw [hst] at hc hcs
      refine ⟨_, _, _, f1, f2, f3, f4', fun hx' => ?_, fun hx' => ?_⟩
      · have : lv2Of l.text = tailOf l.text := by unfold lv2Of; rw [if_pos (hx.2 hx')]
        rw [← this]
        exact ⟨hc, hcs⟩
      · have : lv2Of l.text = (tailOf l.text).drop 1 := by unfold lv2Of; rw [if_neg (fun hh => hx' (hx.1 hh))]
        rw [← this]; exact hc
    · left
      obtain ⟨f1, f2, f3, f4⟩ := plus_facts hTl hb
      have hst : ∀ q : Record F, stepRec q (l, .note) = (Act.plus l).tweak q := by intro q; simp [stepRec, hb]
      rw [hst] at hc
      refine ⟨_, _, f1, f2, ?_, hc⟩
      rw [List.append_assoc]; rw [f3] at f4; exact f4

/-- The numbers do not matter. -/
theorem c37_others_lawful {tokens : Tokens} {e : Ers F} (h : Lawful tokens e) :
    (∀ before m after, roles (typedTokens tokens) = before ++ m :: after → m.2.isElement = true → m.2 ≠ .slot →
      ∃ r, e.elements[elementCount before + 1]? = some r ∧ r.cruiseTo = [] ∧ r.cruiseToSi = 0) ∧
    (∃ r, e.elements[0]? = some r ∧ r.cruiseTo = [] ∧ r.cruiseToSi = 0) ∧
    (∃ r, e.elements[elementCount (roles (typedTokens tokens)) + 1]? = some r ∧ r.cruiseTo = [] ∧ r.cruiseToSi = 0) := by
  have ht := told h
  refine ⟨fun before m after hr hm hns => ?_, ?_, ?_⟩
  · obtain ⟨r, h1, hc, hcs, _⟩ := elem_cruise ht hr hm
    refine ⟨r, h1, ?_⟩
    have h0 := (step_element (cur (F := F) newAdep before) hm).2.2.2.2.2.2.2
    have hcur : (cur (stepRec (cur (F := F) newAdep before) m) (about after)).cruiseTo = [] ∧
        (cur (stepRec (cur (F := F) newAdep before) m) (about after)).cruiseToSi = 0 := by
      rw [← h0.1, ← h0.2]
      apply cur_cruise
      · intro x hx hn
        cases hs : startsText m with
        | true => have := about_text (well_text ht.well hr hs) x hx; rw [this] at hn; cases hn
        | false =>
          have hw := well_route ht.well hr hm hs
          rw [if_neg hns] at hw
          exact (about_open hw (.inr rfl) x hx).2
      · exact fun x hx => about_not hx
    exact ⟨hc.trans hcur.1, hcs.trans hcur.2⟩
  · obtain ⟨t, r, _, h1, h2⟩ := ht.adep
    refine ⟨r, h1, ?_⟩
    have hf : ∀ x : Record F, ((if t.base = .SPEED_VFR then toVfr else id) x).cruiseTo = x.cruiseTo ∧
        ((if t.base = .SPEED_VFR then toVfr else id) x).cruiseToSi = x.cruiseToSi := by intro x; split <;> exact ⟨rfl, rfl⟩
    have hcur : (cur (F := F) newAdep (about (roles (typedTokens tokens)))).cruiseTo = [] ∧
        (cur (F := F) newAdep (about (roles (typedTokens tokens)))).cruiseToSi = 0 := by
      apply cur_cruise (newAdep (F := F))
      · intro x hx hn
        have hw := ht.well
        cases hro : roles (typedTokens tokens) with
        | nil => rw [hro] at hx; cases hx
        | cons m l =>
          rw [hro] at hw hx
          cases hw with
          | @ifr t l hb hne h =>
            have hab : about ((t, .note) :: l) = (t, .note) :: about l := about_append (b := [(t, .note)]) (by simp [Role.isElement])
            rw [hab] at hx
            rcases List.mem_cons.1 hx with hx | hx
            · subst hx; simp [hb, noteBases]
            · exact (about_open h (.inl rfl) x hx).2
          | vfr => simp [about, Role.isElement] at hx
      · exact fun x hx => about_not hx
    have e1 : r.cruiseTo = (unplace r).cruiseTo := rfl
    have e2 : r.cruiseToSi = (unplace r).cruiseToSi := rfl
    rw [e1, e2, h2, (hf _).1, (hf _).2]
    have := final_fields (cur (F := F) newAdep (about (roles (typedTokens tokens)))) (roles (typedTokens tokens))
    exact ⟨this.2.2.2.2.2.2.2.2.1.trans hcur.1, this.2.2.2.2.2.2.2.2.2.trans hcur.2⟩
  · obtain ⟨r, l, h1, _, h3⟩ := ht.ades
    exact ⟨r, h1, by rw [h3]; rfl, by rw [h3]; rfl⟩

/-- **C37** No other element has a cruise-to level. -/
theorem c37_others {frames : Nat} {tokens : Tokens} {e : Ers F} (h : parseF15 frames Ers.new tokens = .ok (true, e)) :
    (∀ before m after, roles (typedTokens tokens) = before ++ m :: after → m.2.isElement = true → m.2 ≠ .slot →
      ∃ r, e.elements[elementCount before + 1]? = some r ∧ r.cruiseTo = [] ∧ r.cruiseToSi = 0) ∧
    (∃ r, e.elements[0]? = some r ∧ r.cruiseTo = [] ∧ r.cruiseToSi = 0) ∧
    (∃ r, e.elements[elementCount (roles (typedTokens tokens)) + 1]? = some r ∧ r.cruiseTo = [] ∧ r.cruiseToSi = 0) :=
  c37_others_lawful (lawful h)

/-- **C37** is false: with a Mach number, or a first level in tens of metres, the unit of the second level is lost. -/
theorem c37_false : check (py! "N0450F350 AAA C/BBB/M082F370F390 DCT C/CCC/N0450S1130F390")
    (fun b e => b && decide (e.elements.map (·.cruiseTo) = [[], [], py! "390", [], py! "390", []])) = true := by
  decide +kernel

/-- A sample with both forms. -/
example : check (py! "N0450F350 AAA C/BBB/N0460F370F390 DCT C/CCC/M082F390PLUS") (fun b e => b &&
    decide (e.elements.map (fun r => (r.name, r.altitude, r.cruiseTo, r.cruiseToSi)) =
    [(py! "ADEP", py! "F350", [], 0), (py! "AAA", py! "F350", [], 0), (py! "BBB", py! "F370", py! "F390", 11887),
     (py! "DCT", py! "F370", [], 0), (py! "CCC", py! "F390", py! "PLUS", 0), (py! "ADES", [], [], 0)])) = true := by
  decide +kernel

/-! ### C40 -/

/-- The token says how long to stay. -/
def Spec.isStayTime (m : Token × Role) : Bool := decide (m.2 = .note) && decide (m.1.base = .STAY_TIME)

theorem cur_stay (r : Record F) {l : List (Token × Role)} (h : ∀ m ∈ l, m.2.isElement = false ∧ isStayTime m = false) :
    (cur r l).stayTime = r.stayTime := by
  induction l generalizing r with
  | nil => rfl
  | cons m l ih =>
    obtain ⟨h1, h2⟩ := h m (by simp)
    rw [cur_cons, ih _ (fun x hx => h x (by simp [hx])), note_stay r h1, if_neg]
    rintro ⟨a, b⟩
    simp [isStayTime, a, b] at h2

/-- **C40** In an accepted field 15, a stay time sets its minutes on the element before it (if no second one follows). -/
theorem c40_accepted {frames : Nat} {tokens : Tokens} {e : Ers F} (h : parseF15 frames Ers.new tokens = .ok (true, e))
    {before after : List (Token × Role)} {t : Token} (hr : roles (typedTokens tokens) = before ++ (t, .note) :: after)
    (hb : t.base = .STAY_TIME) (hl : ∀ x ∈ about after, isStayTime x = false) :
    ∃ r, e.elements[elementCount before]? = some r ∧ StayMinutes t.text r.stayTime := by
  have ht := told (lawful h)
  have hr2 : roles (typedTokens tokens) = (before ++ [(t, .note)]) ++ after := by simp [hr]
  obtain ⟨r, h1, f, hf, h2⟩ := ht.owner hr2
  have hc : elementCount (before ++ [(t, .note)]) = elementCount before := by rw [count_append]; rfl
  rw [hc] at h1
  refine ⟨r, h1, ?_⟩
  have hfs : ∀ x, (f x).stayTime = x.stayTime := by rcases hf with rfl | ⟨rfl, _⟩ <;> exact fun _ => rfl
  have : r.stayTime = stayVal t.text := by
    rw [show r.stayTime = (unplace r).stayTime from rfl, h2, hfs, (final_fields _ _).2.2.2.2.2.2.2.1, List.append_assoc, cur_append,
      List.singleton_append, cur_cons, cur_stay _ (fun m hm => ⟨about_not hm, hl m hm⟩), note_stay _ rfl, if_pos ⟨rfl, hb⟩]
  rw [this]
  exact stay_minutes (ht.allTyped (t, .note) (by rw [hr]; simp)) hb

/-- **C40** In an accepted field 15, all elements that no stay time follows have the stay time 0. -/
theorem c40_none {frames : Nat} {tokens : Tokens} {e : Ers F} (h : parseF15 frames Ers.new tokens = .ok (true, e))
    {before after : List (Token × Role)} {m : Token × Role} (hr : roles (typedTokens tokens) = before ++ m :: after)
    (hm : m.2.isElement = true) (hl : ∀ x ∈ about after, isStayTime x = false) :
    ∃ r, e.elements[elementCount before + 1]? = some r ∧ r.stayTime = 0 := by
  have ht := told (lawful h)
  obtain ⟨r, h1, _, _, h2⟩ := elem_cruise ht hr hm
  refine ⟨r, h1, ?_⟩
  rw [h2, cur_stay _ (fun x hx => ⟨about_not hx, hl x hx⟩)]
  exact (step_element _ hm).2.2.2.2.2.2.1

/-- A stay at a point and one at `C`. -/
example : check (py! "N0450F350 AAA STAY1/0130 DCT BBB C STAY2/0001 DDD") (fun b e => b &&
    decide (e.elements.map (·.stayTime) = [0, 90, 0, 0, 1, 0, 0])) = true := by decide +kernel

/-! ### C45 -/

/-- The types of route elements. -/
def Spec.elementBases : List BaseType := [.POINT, .ROUTE, .DCT, .C, .BREAK_START, .SPEED_VFR, .SID, .STAR]

theorem Well.head_base {p : Spot} {l : List (Token × Role)} (h : Well p l) : ∀ m ∈ l, m.2 = .head → m.1.base ∈ elementBases := by
  induction h with
  | nil => intro m hm; cases hm
  | word _ ih | note _ _ _ _ ih | sid _ _ ih | slot _ _ ih | slash _ _ ih | levels _ _ ih =>
    intro m hm hh
    rcases List.mem_cons.1 hm with rfl | hm
    · cases hh
    · exact ih m hm hh
  | star => intro m hm hh; simp only [List.mem_singleton] at hm; subst hm; cases hh
  | point _ hb _ ih =>
    intro m hm hh
    rcases List.mem_cons.1 hm with rfl | hm
    · simp [hb, elementBases]
    · exact ih m hm hh
  | plain _ hb _ ih =>
    intro m hm hh
    rcases List.mem_cons.1 hm with rfl | hm
    · rcases hb with h | h | h <;> simp [h, elementBases]
    · exact ih m hm hh
  | brk _ hb _ ih =>
    intro m hm hh
    rcases List.mem_cons.1 hm with rfl | hm
    · rcases hb with h | h <;> simp [h, elementBases]
    · exact ih m hm hh

/-- **C45 (partial)** In an accepted field 15 every element is typed as point, ATS route, DCT, C, VFR/OAT/IFPSTOP, SPEED/VFR, SID or
STAR, except those that stand in the place of the point of a cruise climb. Missing: there, any token is accepted (`c45_false`). -/
theorem c45_partial {frames : Nat} {tokens : Tokens} {e : Ers F} (h : parseF15 frames Ers.new tokens = .ok (true, e))
    {k : Nat} {r : Record F} (hk : e.elements[k]? = some r) :
    r.base ∈ elementBases ∨
    ∃ before p after, roles (typedTokens tokens) = before ++ (p, .slot) :: after ∧ elementCount before + 1 = k := by
  have ht := told (lawful h)
  have hlt : k < e.elements.length := (List.getElem?_eq_some_iff.1 hk).1
  rw [ht.len] at hlt
  cases k with
  | zero =>
    left
    obtain ⟨t, r', _, h1, h2⟩ := ht.adep
    rw [hk] at h1; cases h1
    have hf : ∀ x : Record F, ((if t.base = .SPEED_VFR then toVfr else id) x).base = x.base := by intro x; split <;> rfl
    have htw := cur_tweak (newAdep (F := F)) (l := about (roles (typedTokens tokens))) (fun m hm => about_not hm)
    have : r.base = .POINT := by
      rw [show r.base = (unplace r).base from rfl, h2, hf, (final_fields _ _).2.2.2.1, htw.fields.2.2.2.1]; rfl
    rw [this]; simp [elementBases]
  | succ k =>
    by_cases hlast : k < elementCount (roles (typedTokens tokens))
    · obtain ⟨before, m, after, hr, hm, hc⟩ := split_at _ k hlast
      obtain ⟨r', h1, h2⟩ := (c46 h).2 before m after hr hm
      rw [hc, hk] at h1; cases h1
      obtain ⟨p, o⟩ := m
      cases o with
      | word | note => cases hm
      | slot => exact .inr ⟨before, p, after, hr, by omega⟩
      | sid => left; rw [h2.2.2.2.1]; simp [elementBases]
      | star => left; rw [h2.2.2.2.1]; simp [elementBases]
      | head =>
        left
        rw [h2.2.2.2.1]
        show p.base ∈ _
        have hw := ht.well
        have hmem : (p, Role.head) ∈ roles (typedTokens tokens) := by rw [hr]; simp
        cases hro : roles (typedTokens tokens) with
        | nil => rw [hro] at hmem; cases hmem
        | cons x l =>
          rw [hro] at hw hmem
          cases hw with
          | ifr hb hne hl =>
            rcases List.mem_cons.1 hmem with h | h
            · cases h
            · exact hl.head_base _ h rfl
          | vfr hb hl =>
            rcases List.mem_cons.1 hmem with h | h
            · cases h; simp [hb, elementBases]
            · exact hl.head_base _ h rfl
    · left
      obtain ⟨r', l, h1, _, h3⟩ := ht.ades
      have : k = elementCount (roles (typedTokens tokens)) := by omega
      rw [← this, hk] at h1; cases h1
      rw [h3]; show BaseType.POINT ∈ _; simp [elementBases]

/-- **C45** is false: the separator `/` becomes an element of an accepted route. -/
theorem c45_false : check (py! "N0450F350 PNT C///N0450F350F370") (fun b e => b &&
    decide (e.elements.map (fun r => (r.name, r.base)) = [(py! "ADEP", .POINT), (py! "PNT", .POINT), (py! "/", .SLASH), (py! "ADES", .POINT)])) = true := by
  decide +kernel

/-! ### C42 -/

/-- What the sequence of elements tells about a token. -/
def Spec.Reflected {F : Type} (e : Ers F) (before : List (Token × Role)) (m : Token × Role) (after : List (Token × Role)) : Prop :=
  match m.2 with
  | .word => ∃ r u v, e.elements[elementCount before]? = some r ∧ r.breakText = u ++ m.1.text ++ v
  | .note =>
    -- separators: `/`, STAY, the `C` of a cruise climb; `T` is last
    m.1.text = py! "/" ∨ m.1.base = .STAY ∨ (m.1.text = py! "C" ∧ after.head?.map (·.1.base) = some .SLASH) ∨
    (m.1.text = py! "T" ∧ after = []) ∨
    -- a stay time
    (isStayTime m = true ∧ ((∃ x ∈ about after, isStayTime x = true) ∨
      ∃ r, e.elements[elementCount before]? = some r ∧ StayMinutes m.1.text r.stayTime)) ∨
    -- a change of speed and level
    (isChange m = true ∧ ((∃ x ∈ upTo [] after, isChange x = true) ∨
      ∃ r, e.elements[elementCount before]? = some r ∧ Gives m.1 r.speed r.altitude))
  | _ => ∃ r, e.elements[elementCount before + 1]? = some r ∧ RoleElement m r

theorem Well.note_base {p : Spot} {l : List (Token × Role)} (h : Well p l) : ∀ a t b, l = a ++ (t, .note) :: b →
    (t.base ∈ noteBases ∨ t.base = .SPEED_ALTITUDE_ALTITUDE ∨ t.base = .SPEED_ALTITUDE_PLUS) ∧ (t.base = .TRUNCATE → b = []) := by
  have next : ∀ {x : Token × Role} {l : List (Token × Role)} {Q : Token → List (Token × Role) → Prop},
      (∀ a t b, l = a ++ (t, .note) :: b → Q t b) → (∀ t, x = (t, .note) → Q t l) → ∀ a t b, x :: l = a ++ (t, .note) :: b → Q t b := by
    intro x l Q h1 h2 a t b he
    cases a with
    | nil => simp only [List.nil_append, List.cons.injEq] at he; obtain ⟨rfl, rfl⟩ := he; exact h2 t rfl
    | cons y a => simp only [List.cons_append, List.cons.injEq] at he; exact h1 a t b he.2
  induction h with
  | nil => intro a t b h; simp at h
  | word _ ih | sid _ _ ih | slot _ _ ih | point _ _ _ ih | plain _ _ _ ih | brk _ _ _ ih =>
    exact next (Q := fun t b => (t.base ∈ noteBases ∨ t.base = .SPEED_ALTITUDE_ALTITUDE ∨ t.base = .SPEED_ALTITUDE_PLUS) ∧
      (t.base = .TRUNCATE → b = [])) ih (fun t h => by cases h)
  | star =>
    intro a t b h
    cases a with
    | nil => simp at h
    | cons x a => simp at h
  | note _ hb ht _ ih =>
    refine next (Q := fun t b => (t.base ∈ noteBases ∨ t.base = .SPEED_ALTITUDE_ALTITUDE ∨ t.base = .SPEED_ALTITUDE_PLUS) ∧
      (t.base = .TRUNCATE → b = [])) ih (fun t h => ?_)
    cases h; exact ⟨.inl hb, ht⟩
  | slash hb _ ih =>
    refine next (Q := fun t b => (t.base ∈ noteBases ∨ t.base = .SPEED_ALTITUDE_ALTITUDE ∨ t.base = .SPEED_ALTITUDE_PLUS) ∧
      (t.base = .TRUNCATE → b = [])) ih (fun t h => ?_)
    cases h; exact ⟨.inl (by simp [hb, noteBases]), by simp [hb]⟩
  | levels hb _ ih =>
    refine next (Q := fun t b => (t.base ∈ noteBases ∨ t.base = .SPEED_ALTITUDE_ALTITUDE ∨ t.base = .SPEED_ALTITUDE_PLUS) ∧
      (t.base = .TRUNCATE → b = [])) ih (fun t h => ?_)
    cases h
    rcases hb with ⟨hb, _⟩ | hb
    · exact ⟨.inr (.inl hb), by simp [hb]⟩
    · exact ⟨.inr (.inr hb), by simp [hb]⟩

theorem WellAll.note_base {l : List (Token × Role)} (h : WellAll l) {a : List (Token × Role)} {t : Token} {b : List (Token × Role)}
    (he : l = a ++ (t, .note) :: b) :
    (t.base ∈ noteBases ∨ t.base = .SPEED_ALTITUDE_ALTITUDE ∨ t.base = .SPEED_ALTITUDE_PLUS) ∧ (t.base = .TRUNCATE → b = []) := by
  cases h with
  | ifr hb _ h =>
    cases a with
    | nil =>
      simp only [List.nil_append, List.cons.injEq] at he
      obtain ⟨h1, rfl⟩ := he
      cases h1
      exact ⟨.inl (by simp [hb, noteBases]), by simp [hb]⟩
    | cons x a => simp only [List.cons_append, List.cons.injEq] at he; exact h.note_base a t b he.2
  | vfr _ h =>
    cases a with
    | nil => simp at he
    | cons x a => simp only [List.cons_append, List.cons.injEq] at he; exact h.note_base a t b he.2

theorem mark_cons (m : Mode) (t : Token) (ts : List Token) :
    (∃ o m', mark m (t :: ts) = (t, o) :: mark m' ts ∧
      ((∀ f, m ≠ .route f) ∧ m' ≠ .climb ∨ ∃ f, m = .route f ∧ (isCruise t ts = true ∧ m' = .climb ∨ isCruise t ts = false ∧ m' ≠ .climb ∧ o = roleOf f t))) := by
  cases m with
  | text r =>
    refine ⟨_, _, mark.eq_def _ _, .inl ⟨by simp, ?_⟩⟩
    split <;> simp
  | climb => exact ⟨_, _, mark.eq_def _ _, .inl ⟨by simp, by simp⟩⟩
  | slot => exact ⟨_, _, mark.eq_def _ _, .inl ⟨by simp, by simp⟩⟩
  | route f =>
    rw [mark]
    cases hc : isCruise t ts with
    | true => exact ⟨_, _, if_pos rfl, .inr ⟨f, rfl, .inl ⟨rfl, rfl⟩⟩⟩
    | false =>
      refine ⟨_, _, if_neg (by simp), .inr ⟨f, rfl, .inr ⟨rfl, ?_, rfl⟩⟩⟩
      unfold modeAfter; split <;> simp

theorem mark_c {m : Mode} {ts : List Token} (hm : m = .climb → ts.head?.map (·.base) = some .SLASH) :
    ∀ a t b, mark m ts = a ++ (t, .note) :: b → t.base = .C → b.head?.map (·.1.base) = some .SLASH := by
  induction ts generalizing m with
  | nil => intro a t b h; rw [mark_nil] at h; simp at h
  | cons x ts ih =>
    intro a t b h hb
    obtain ⟨o, m', h1, h2⟩ := mark_cons m x ts
    have hnext : m' = .climb → ts.head?.map (·.base) = some .SLASH := by
      rintro rfl
      rcases h2 with ⟨_, h⟩ | ⟨f, _, ⟨h, _⟩ | ⟨_, h, _⟩⟩
      · exact absurd rfl h
      · simp [isCruise] at h; simpa using h.2
      · exact absurd rfl h
    rw [h1] at h
    cases a with
    | cons y a => simp only [List.cons_append, List.cons.injEq] at h; exact ih hnext a t b h.2 hb
    | nil =>
      simp only [List.nil_append, List.cons.injEq, Prod.mk.injEq] at h
      obtain ⟨⟨rfl, rfl⟩, rfl⟩ := h
      have key : ts.head?.map (·.base) = some .SLASH := by
        rcases h2 with ⟨hr, _⟩ | ⟨f, rfl, ⟨h, rfl⟩ | ⟨_, _, h⟩⟩
        · cases m with
          | route f => exact absurd rfl (hr f)
          | text r => rw [mark] at h1; simp at h1
          | slot => rw [mark] at h1; simp at h1
          | climb => have := hm rfl; simp [hb] at this
        · exact hnext rfl
        · simp [roleOf, hb] at h
      have ht := mark_tokens m' ts
      cases hmm : mark m' ts with
      | nil => rw [hmm] at ht; rw [← ht] at key; cases key
      | cons y l => rw [hmm] at ht; rw [← ht] at key; simpa using key

theorem roles_c {ts a b : List _} {t : Token} (h : roles ts = a ++ (t, .note) :: b) (hb : t.base = .C) (hw : WellAll (roles ts)) :
    b.head?.map (·.1.base) = some .SLASH := by
  cases ts with
  | nil => simp [roles] at h
  | cons x ts =>
    have hx : ∃ o m, roles (x :: ts) = (x, o) :: mark m ts ∧ m ≠ .climb := by
      unfold roles; dsimp only
      split
      · exact ⟨_, _, rfl, by simp⟩
      · exact ⟨_, _, rfl, by simp⟩
    obtain ⟨o, m, h1, h2⟩ := hx
    cases a with
    | cons y a =>
      rw [h1] at h; simp only [List.cons_append, List.cons.injEq] at h
      exact mark_c (fun h => absurd h h2) a t b h.2 hb
    | nil =>
      rw [h] at hw
      cases hw with
      | ifr hb' => rw [hb] at hb'; cases hb'

theorem joined_mid (b : List (Token × Role)) (m : Token × Role) (c : List (Token × Role)) :
    ∃ u v, joined (b ++ m :: c) = u ++ m.1.text ++ v := by
  induction b with
  | nil =>
    by_cases hc : c = []
    · subst hc; exact ⟨[], [], by simp [joined]⟩
    · exact ⟨[], ' ' :: joined c, by simp [joined_cons m c hc]⟩
  | cons x b ih =>
    obtain ⟨u, v, h⟩ := ih
    refine ⟨x.1.text ++ ' ' :: u, v, ?_⟩
    rw [List.cons_append, joined_cons _ _ (by simp), h]
    simp

/-- **C42 (partial)** Every token of an accepted field 15 is reflected in the sequence of elements: it is an element, part of the break text
of its element, a separator, or it sets the stay time or the speed and level of its element. Missing: (1) a stay time or speed and
level may be superseded before it has been applied to any element; (2) field 15s with errors (`c42_false`). -/
theorem c42_partial {frames : Nat} {tokens : Tokens} {e : Ers F} (h : parseF15 frames Ers.new tokens = .ok (true, e))
    (hne : ∀ t ∈ tokens.toks, t.text ≠ []) {before after : List (Token × Role)} {m : Token × Role}
    (hr : roles (typedTokens tokens) = before ++ m :: after) : Reflected e before m after := by
  have ht := told (lawful h)
  obtain ⟨t, o⟩ := m
  have hT : Typed t := ht.allTyped (t, o) (by rw [hr]; simp)
  cases o with
  | head | sid | star | slot => exact (c46 h).2 before _ after hr rfl
  | word =>
    show ∃ r u v, _
    obtain ⟨c1, c2, _⟩ := c39 h hne
    rcases last_element before with hb | ⟨a, x, b, rfl, hx, hb⟩
    · obtain ⟨r, _, _, h3⟩ := c2
      have := h3 (t, .word) (by rw [hr, about_append hb]; simp [about, Role.isElement])
      cases this
    · have hr' : roles (typedTokens tokens) = a ++ x :: (b ++ (t, .word) :: after) := by rw [hr]; simp
      obtain ⟨r, h1, h2, h3⟩ := c1 a x _ hr' hx
      have hab : about (b ++ (t, Role.word) :: after) = b ++ (t, .word) :: about after := by
        rw [about_append hb]; simp [about, Role.isElement]
      cases hs : startsText x with
      | false => have := (h3 hs).2 (t, .word) (by rw [hab]; simp); cases this
      | true =>
        have hj := (h2 hs).1
        rw [hab] at hj
        obtain ⟨u, v, huv⟩ := joined_mid b (t, .word) (about after)
        refine ⟨r, u, v, ?_, by rw [hj, huv]⟩
        rw [count_append, count_cons_el _ hx, count_zero hb]; exact h1
  | note =>
    obtain ⟨hb, htr⟩ := ht.well.note_base hr
    have htx : t.base ≠ .TOO_LONG := by
      intro h
      rw [h] at hb
      simp [noteBases] at hb
    have hty := typed_types hT htx
    obtain ⟨k1, _, k3, k4, _⟩ := c10_keywords t.text
    rw [hty] at k1 k3 k4
    have chg : isChange (t, .note) = true → (isChange (t, .note) = true ∧ ((∃ x ∈ upTo [] after, isChange x = true) ∨
      ∃ r, e.elements[elementCount before]? = some r ∧ Gives t r.speed r.altitude)) := by
      intro hc
      refine ⟨hc, ?_⟩
      by_cases hx : ∃ x ∈ upTo [] after, isChange x = true
      · exact .inl hx
      · right
        have hr2 : roles (typedTokens tokens) = (before ++ [(t, .note)]) ++ after := by simp [hr]
        obtain ⟨r, m, h1, h2, h3⟩ := c26 h hr2
        have hcn : elementCount (before ++ [(t, .note)]) = elementCount before := by rw [count_append]; rfl
        rw [hcn] at h1
        have : LastChange (upTo (before ++ [(t, .note)]) after) (t, .note) := by
          refine ⟨before, upTo [] after, ?_, hc, ?_⟩
          · unfold upTo; simp
          · intro x hx'
            cases hxc : isChange x with
            | false => rfl
            | true => exact absurd ⟨x, hx', hxc⟩ hx
        rw [last_change_unique h2 this] at h3
        exact ⟨r, h1, h3⟩
    show _ ∨ _ ∨ _ ∨ _ ∨ _ ∨ _
    rcases hb with hb | hb | hb
    · simp only [noteBases, List.mem_cons, List.not_mem_nil, or_false] at hb
      rcases hb with hb | hb | hb | hb | hb | hb
      · exact .inl (k1.1 hb)
      · exact .inr (.inl hb)
      · refine .inr (.inr (.inr (.inr (.inl ⟨by simp [isStayTime, hb], ?_⟩))))
        by_cases hx : ∃ x ∈ about after, isStayTime x = true
        · exact .inl hx
        · refine .inr (c40_accepted h hr hb ?_)
          intro x hx'
          cases hxc : isStayTime x with
          | false => rfl
          | true => exact absurd ⟨x, hx', hxc⟩ hx
      · exact .inr (.inr (.inr (.inl ⟨k3.1 hb, htr hb⟩)))
      · exact .inr (.inr (.inl ⟨k4.1 hb, roles_c hr hb ht.well⟩))
      · exact .inr (.inr (.inr (.inr (.inr (chg (by simp [isChange, hb]))))))
    · exact .inr (.inr (.inr (.inr (.inr (chg (by simp [isChange, hb]))))))
    · exact .inr (.inr (.inr (.inr (.inr (chg (by simp [isChange, hb]))))))

/-- **C42** is false: a speed and level can be overwritten before any element got them, and after an error tokens are passed over silently. -/
theorem c42_false :
    check (py! "N0450F350 PNT/N0460F360/N0470F370") (fun b e => b &&
      decide (e.elements.map (fun r => (r.speed, r.altitude)) = [(py! "N0450", py! "F350"), (py! "N0470", py! "F370"), ([], [])])) = true ∧
    check (py! "N0450F350 PNT ?? GAT B9 XXX") (fun b e => !b &&
      decide (e.elements.map (·.name) = [py! "ADEP", py! "PNT", py! "ADES"]) && decide (e.errors.map (·.name) = [py! "??"]) &&
      e.elements.all (fun r => r.breakText == [])) = true := by
  constructor <;> decide +kernel

/-- The text of `c42_partial` has tokens of every kind. -/
example : check (py! "N0450F350 AAA STAY1/0130 C/BBB/N0460F370F390 VFR XX IFR CCC/N0450F350 T") (fun b e => b &&
    decide (e.elements.map (fun r => (r.name, r.stayTime, r.breakText)) = [(py! "ADEP", 0, []), (py! "AAA", 90, []), (py! "BBB", 0, []),
      (py! "VFR", 0, py! "XX IFR"), (py! "CCC", 0, []), (py! "ADES", 0, [])])) = true := by decide +kernel

end F15
