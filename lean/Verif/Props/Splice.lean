import Verif.Lemmas.Splice
import Verif.Spec.Splice
import Verif.Props.Meaning
import Verif.Props.Grammar
/-!
# C71: a route can be cut and joined at a point
-/

namespace F15
open Spec

set_option linter.unusedSectionVars false
variable {F : Type} [PyFloat F]

/-! ### Elements with the same surroundings -/

theorem element_calm {b b' a a' : List (Token × Role)} {m : Token × Role} {r r' : Record F} (h : RouteElement b m a r)
    (h' : RouteElement b' m a' r') (hab : about a = about a') (hcl : ∀ t n, ClimbTo a t n F → ClimbTo a' t n F)
    (ho : Overlooked b a ↔ Overlooked b' a') : unaim (withoutSpeed r) = unaim (withoutSpeed r') := by
  obtain ⟨n1, n2, n3, n4, n5⟩ := h.name
  obtain ⟨n1', n2', n3', n4', n5'⟩ := h'.name
  have hn := n3.trans n3'.symm
  have hs := n5.trans n5'.symm
  refine unaim_eq (r := withoutSpeed r) (r' := withoutSpeed r') hn (n1.trans n1'.symm) (n2.trans n2'.symm) (n4.trans n4'.symm) hs
    ⟨rfl, rfl, rfl, rfl, stay_unique h.filled.stay (hab ▸ h'.filled.stay), h.filled.noError.trans h'.filled.noError.symm⟩
    (h.rules.trans h'.rules.symm) (h.text.trans (by rw [hab]; exact h'.text.symm)) ?_ ?_
  · by_cases hm : m.2 = .slot
    · exact climb_unique (hcl _ _ (h.climb hm)) (h'.climb hm)
    · obtain ⟨a, b⟩ := h.noClimb hm
      obtain ⟨a', b'⟩ := h'.noClimb hm
      exact ⟨a.trans a'.symm, b.trans b'.symm⟩
  · by_cases hp : isLatLong m.1.sub ∧ ¬ Overlooked b a
    · obtain ⟨k1, k2⟩ := h.place hp.1 hp.2
      obtain ⟨k3, k4⟩ := h'.place hp.1 (fun h => hp.2 (ho.2 h))
      exact ⟨k1.trans k3.symm, decoded_unique hn hs k2 k4⟩
    · have : ¬ isLatLong m.1.sub ∨ Overlooked b a := by
        by_cases hl : isLatLong m.1.sub
        · right
          by_cases ho : Overlooked b a
          · exact ho
          · exact absurd ⟨hl, ho⟩ hp
        · exact .inl hl
      obtain ⟨k1, k2, k3⟩ := h.noPlace this
      obtain ⟨k4, k5, k6⟩ := h'.noPlace (this.imp_right ho.1)
      exact ⟨k1.trans k4.symm, by show (r.latitude, r.longitude) = (r'.latitude, r'.longitude); rw [k2, k3, k5, k6]⟩

/-- With the speed and level the elements are the same. -/
theorem unaim_of_calm {said own said' own' : List (Token × Role)} {r r' : Record F} (h : unaim (withoutSpeed r) = unaim (withoutSpeed r'))
    (hf : Filled said own r) (hf' : Filled said' own' r') (hs : r.speed = r'.speed ∧ r.altitude = r'.altitude) : unaim r = unaim r' := by
  have k3 : r.altitudeSi = r'.altitudeSi := by rw [hf.si.1, hf'.si.1, hs.2]
  have k4 : r.speedSi = r'.speedSi := by rw [hf.si.2, hf'.si.2, hs.1, k3]
  obtain ⟨h1, h2⟩ := hs
  cases r; cases r'
  simp only [unaim, withoutSpeed, Record.mk.injEq] at *
  simp_all

theorem last_change_append {a z : List (Token × Role)} {c : Token × Role} (h : LastChange (a ++ z) c) :
    LastChange z c ∨ ((∀ x ∈ z, isChange x = false) ∧ LastChange a c) := by
  obtain ⟨l, t, he, hc, ht⟩ := h
  rcases List.append_eq_append_iff.1 he with ⟨w, h1, h2⟩ | ⟨w, h1, h2⟩
  · left; exact ⟨w, t, h2, hc, ht⟩
  · cases w with
    | nil => left; exact ⟨[], t, by simpa using h2.symm, hc, ht⟩
    | cons x w =>
      simp only [List.cons_append, List.cons.injEq] at h2
      obtain ⟨rfl, rfl⟩ := h2
      exact .inr ⟨fun x hx => ht x (by simp [hx]), l, w, h1, hc, fun x hx => ht x (by simp [hx])⟩

theorem filled_speed {a a' z own own' : List (Token × Role)} {r r' : Record F} (h : Filled (a ++ z) own r) (h' : Filled (a' ++ z) own' r')
    (hg : ∀ c c' s v s' v', LastChange a c → LastChange a' c' → Gives c.1 s v → Gives c'.1 s' v' → s = s' ∧ v = v') :
    r.speed = r'.speed ∧ r.altitude = r'.altitude := by
  obtain ⟨c, h1, h2⟩ := h.change
  obtain ⟨c', h3, h4⟩ := h'.change
  rcases last_change_append h1 with k | ⟨k0, k⟩ <;> rcases last_change_append h3 with k' | ⟨k0', k'⟩
  · rw [last_change_unique k k'] at h2
    exact gives_unique h2 h4
  · obtain ⟨x, y, rfl, hx, _⟩ := k
    rw [k0' c (by simp)] at hx; cases hx
  · obtain ⟨x, y, rfl, hx, _⟩ := k'
    rw [k0 c' (by simp)] at hx; cases hx
  · exact hg c c' _ _ _ _ k k' h2 h4

theorem count_mid (a b : List (Token × Role)) : elementCount (a ++ b) = elementCount a + elementCount b := by
  simp [elementCount]

theorem calm_courses {l : List (Record F)} (hc : ∀ before r following, l = before ++ r :: following → (r.bearing, r.distance) = courseOf r following) :
    ∀ before r following, l.map withoutSpeed = before ++ r :: following → (r.bearing, r.distance) = courseOf r following := by
  intro before r following h
  obtain ⟨l1, l2, rfl, rfl, h2⟩ := List.map_eq_append_iff.1 h
  obtain ⟨r0, l3, rfl, rfl, rfl⟩ := List.map_eq_cons_iff.1 h2
  have h1 := hc l1 r0 l3 rfl
  have hall : ∀ l : List (Record F), All2 LocEq l (l.map withoutSpeed) := by
    intro l
    induction l with
    | nil => exact .nil
    | cons x l ih => exact .cons ⟨rfl, rfl, rfl⟩ ih
  rw [← courseOf_congr (r := r0) (r' := withoutSpeed r0) (n := l3) ⟨rfl, rfl, rfl⟩ ((hall l3).take 2), ← h1]
  rfl

theorem drop_courses {l : List (Record F)} {k : Nat} (hc : ∀ before r following, l = before ++ r :: following → (r.bearing, r.distance) = courseOf r following) :
    ∀ before r following, l.drop k = before ++ r :: following → (r.bearing, r.distance) = courseOf r following := by
  intro before r following h
  refine hc (l.take k ++ before) r following ?_
  rw [List.append_assoc, ← h, List.take_append_drop]

/-- Two field 15s with a common end that begins with an element. -/
theorem same_end {ts ts' : List Token} {l l' : List (Record F)} (h : Meaning ts l) (h' : Meaning ts' l')
    {a a' z : List (Token × Role)} (hr : roles ts = a ++ z) (hr' : roles ts' = a' ++ z) (hz : 0 < elementCount z)
    (ho : ∀ mid m aft, z = mid ++ m :: aft → (Overlooked (a ++ mid) aft ↔ Overlooked (a' ++ mid) aft)) :
    SameButSpeeds (l.drop (elementCount a + 1)) (l'.drop (elementCount a' + 1)) ∧
    ((∀ c c' s v s' v', LastChange a c → LastChange a' c' → Gives c.1 s v → Gives c'.1 s' v' → s = s' ∧ v = v') →
      l.drop (elementCount a + 1) = l'.drop (elementCount a' + 1)) := by
  have key : ∀ j, j < elementCount z → ∃ mid m aft r r', z = mid ++ m :: aft ∧ l[elementCount a + 1 + j]? = some r ∧
      l'[elementCount a' + 1 + j]? = some r' ∧ RouteElement (a ++ mid) m aft r ∧ RouteElement (a' ++ mid) m aft r' := by
    intro j hj
    obtain ⟨mid, m, aft, rfl, hm, rfl⟩ := split_at z j hj
    obtain ⟨r, h1, h2⟩ := h.route (a ++ mid) m aft (by simp [hr]) hm
    obtain ⟨r', h3, h4⟩ := h'.route (a' ++ mid) m aft (by simp [hr']) hm
    refine ⟨mid, m, aft, r, r', rfl, ?_, ?_, h2, h4⟩
    · rw [← h1, count_mid]; congr 1; omega
    · rw [← h3, count_mid]; congr 1; omega
  have calm : ∀ j, (l[elementCount a + 1 + j]?).map (fun r => unaim (withoutSpeed r)) =
      (l'[elementCount a' + 1 + j]?).map (fun r => unaim (withoutSpeed r)) := by
    intro j
    by_cases hj : j < elementCount z
    · obtain ⟨mid, m, aft, r, r', e, h1, h2, h3, h4⟩ := key j hj
      rw [h1, h2]
      exact congrArg some (element_calm h3 h4 rfl (fun _ _ h => h) (ho mid m aft e))
    · by_cases hj' : j = elementCount z
      · obtain ⟨p, k1, k2⟩ := h.arrival
        obtain ⟨p', k1', k2'⟩ := h'.arrival
        obtain ⟨mid, m, aft, r, r', e, h1, h2, h3, h4⟩ := key (elementCount z - 1) (by omega)
        rw [hr, count_mid] at k1 k2
        rw [hr', count_mid] at k1' k2'
        rw [show elementCount a + 1 + (elementCount z - 1) = elementCount a + elementCount z by omega, k1] at h1
        rw [show elementCount a' + 1 + (elementCount z - 1) = elementCount a' + elementCount z by omega, k1'] at h2
        cases h1; cases h2
        rw [hj', show elementCount a + 1 + elementCount z = elementCount a + elementCount z + 1 by omega, k2,
          show elementCount a' + 1 + elementCount z = elementCount a' + elementCount z + 1 by omega, k2', h3.rules, h4.rules]
      · rw [List.getElem?_eq_none (by rw [h.count, hr, count_mid]; omega), List.getElem?_eq_none (by rw [h'.count, hr', count_mid]; omega)]
  constructor
  · unfold SameButSpeeds
    refine aim_unique ?_ (calm_courses (drop_courses h.course)) (calm_courses (drop_courses h'.course))
    refine List.ext_getElem? fun j => ?_
    have := calm j
    simpa [List.getElem?_map, List.getElem?_drop, Option.map_map, Function.comp_def] using this
  · intro hg
    refine aim_unique ?_ (drop_courses h.course) (drop_courses h'.course)
    refine List.ext_getElem? fun j => ?_
    rw [List.getElem?_map, List.getElem?_map, List.getElem?_drop, List.getElem?_drop]
    by_cases hj : j < elementCount z
    · obtain ⟨mid, m, aft, r, r', e, h1, h2, h3, h4⟩ := key j hj
      have hc := calm j
      rw [h1, h2] at hc ⊢
      have hc' : unaim (withoutSpeed r) = unaim (withoutSpeed r') := by simpa using hc
      refine congrArg some (unaim_of_calm hc' h3.filled h4.filled ?_)
      have f1 := h3.filled
      have f2 := h4.filled
      unfold upTo at f1 f2
      simp only [List.append_assoc] at f1 f2
      exact filled_speed f1 f2 hg
    · by_cases hj' : j = elementCount z
      · obtain ⟨p, k1, k2⟩ := h.arrival
        obtain ⟨p', k1', k2'⟩ := h'.arrival
        have hc := calm j
        rw [hr, count_mid] at k2
        rw [hr', count_mid] at k2'
        rw [hj', show elementCount a + 1 + elementCount z = elementCount a + elementCount z + 1 by omega, k2,
          show elementCount a' + 1 + elementCount z = elementCount a' + elementCount z + 1 by omega, k2'] at hc ⊢
        have hc' : unaim (withoutSpeed (destination (F := F) p.rules)) = unaim (withoutSpeed (destination p'.rules)) := by simpa using hc
        have : (unaim (withoutSpeed (destination (F := F) p.rules))).rules = (unaim (withoutSpeed (destination (F := F) p'.rules))).rules := by
          rw [hc']
        have : p.rules = p'.rules := this
        rw [this]
      · rw [List.getElem?_eq_none (by rw [h.count, hr, count_mid]; omega), List.getElem?_eq_none (by rw [h'.count, hr', count_mid]; omega)]

theorem over_mid {a a' mid aft : List (Token × Role)} (h : mid ≠ []) : Overlooked (a ++ mid) aft ↔ Overlooked (a' ++ mid) aft := by
  rw [← overlooked_iff, ← overlooked_iff, List.getLast?_append, List.getLast?_append, List.getLast?_eq_some_getLast h]
  simp

theorem over_end {a a' aft : List (Token × Role)} {p : Token × Role} (h : ¬ Overlooked a aft) (h' : ¬ Overlooked a' aft) :
    ∀ mid m aft', p :: aft = mid ++ m :: aft' → (Overlooked (a ++ mid) aft' ↔ Overlooked (a' ++ mid) aft') := by
  intro mid m aft' he
  cases mid with
  | nil => cases he; simp [h, h']
  | cons x mid => exact over_mid (by simp)

theorem over_note {l : Token} {aft : List (Token × Role)} : ¬ Overlooked [(l, Role.note)] aft := by
  rintro ⟨⟨b, w, h, _⟩, _⟩
  cases b with
  | nil => cases h
  | cons x b => cases b <;> cases h

theorem upTo_point {before after : List (Token × Role)} {p : Token} (hp : p.base = .POINT) :
    upTo before ((p, .head) :: after) = before := by
  simp [upTo, about, Role.isElement, hp]

theorem roles_start {l p : Token} (hl : l.base = .SPEED_ALTITUDE) (hp : p.base = .POINT) (v : List Token) :
    roles (l :: p :: v) = (l, .note) :: (p, .head) :: mark (.route false) v := by
  unfold roles
  dsimp only
  rw [if_neg (by simp [hl]), mark_route (by simp [hp]), show roleOf true p = .head by simp [roleOf, hp],
    show modeAfter p = .route false by simp [modeAfter, hp]]

theorem last_single {l : Token} {c : Token × Role} (h : LastChange [(l, .note)] c) : c = (l, .note) := by
  obtain ⟨a, b, h, _⟩ := h
  match a, h with
  | [], h => cases h; rfl
  | _ :: [], h => cases h
  | _ :: _ :: _, h => cases h

theorem level_ne_nil {l : Token} (hl : (assignSyntax l).base = .SPEED_ALTITUDE) : l.text ≠ [] := by
  intro h0
  obtain ⟨h1, _⟩ := level_facts (typed_assign l) hl
  rw [assign_text, h0] at h1
  exact speed_ne h1 rfl

/-! ### Cutting -/

/-- **C71** A route can be cut at any point: the point and everything behind it, with any valid initial SPEED/LEVEL before it, is
accepted, and has the elements the whole route has from that point on: the same but for their speeds and levels, and altogether the
same if the new SPEED/LEVEL is the one in force where the route is cut. -/
theorem c71_cut {frames frames' : Nat} {u v : List Token} {p l : Token} {e : Ers F}
    (h : parseF15 frames (Ers.new : Ers F) ⟨u ++ p :: v, 0⟩ = .ok (true, e)) (hne : ∀ t ∈ u ++ p :: v, t.text ≠ [])
    {before after : List (Token × Role)} (hr : roles (typedTokens ⟨u ++ p :: v, 0⟩) = before ++ (assignSyntax p, .head) :: after)
    (hlen : before.length = u.length) (hp : (assignSyntax p).base = .POINT) (ho : ¬ Overlooked before after)
    (hl : (assignSyntax l).base = .SPEED_ALTITUDE) (hl' : LevelOk l.text) (hf : 4 * (v.length + 2) ≤ frames') :
    ∃ e', parseF15 frames' (Ers.new : Ers F) ⟨l :: p :: v, 0⟩ = .ok (true, e') ∧
      SameButSpeeds (e.elements.drop (elementCount before + 1)) (e'.elements.drop 1) ∧
      ((∀ d, e.elements[elementCount before]? = some d → Gives (assignSyntax l) d.speed d.altitude) →
        e.elements.drop (elementCount before + 1) = e'.elements.drop 1) := by
  have hT : ∀ x ∈ typedTokens ⟨u ++ p :: v, 0⟩, Typed x := fun x hx => typed_map hx
  obtain ⟨as, hs⟩ := (sentence_iff hT).1 (c22_sound _ h)
  obtain ⟨h1, ⟨as', h2⟩, h3⟩ := sent_cut hs hr hp ho
  have htok : before.map (·.1) ++ assignSyntax p :: after.map (·.1) = u.map assignSyntax ++ assignSyntax p :: v.map assignSyntax := by
    have := roles_tokens (typedTokens ⟨u ++ p :: v, 0⟩)
    rw [hr] at this
    simpa [typedTokens] using this
  have hav : after.map (·.1) = v.map assignSyntax := by
    have := (List.append_inj htok (by simp [hlen])).2
    simpa using this
  have hTl : Typed (assignSyntax l) := typed_assign l
  have hk : (Act.level (assignSyntax l)).nums = [] := (levelOk_iff hTl hl).1 (by rw [assign_text]; exact hl')
  have hsent : SentRun (typedTokens ⟨l :: p :: v, 0⟩) (.level (assignSyntax l) :: .point (assignSyntax p) :: as') := by
    show SentRun (assignSyntax l :: assignSyntax p :: v.map assignSyntax) _
    rw [← hav]
    exact .ifr hl (fun _ => hk) (by simp) (.point (by simp [Phase.allows, hp]) hp (fun _ => h1) h2)
  have hT' : ∀ x ∈ typedTokens ⟨l :: p :: v, 0⟩, Typed x := fun x hx => typed_map hx
  obtain ⟨e', he'⟩ := (c22 (F := F) (frames := frames') ⟨l :: p :: v, 0⟩ (by simpa using hf)).2 ((sentence_iff hT').2 ⟨_, hsent⟩)
  have hlne := level_ne_nil hl
  have hm := c68 h hne
  have hm' := c68 he' (by
    intro t ht
    rcases List.mem_cons.1 ht with rfl | ht
    · exact hlne
    · exact hne t (by simp only [List.mem_append]; exact .inr ht))
  have hr' : roles (typedTokens ⟨l :: p :: v, 0⟩) = [(assignSyntax l, .note)] ++ (assignSyntax p, .head) :: after := by
    show roles (assignSyntax l :: assignSyntax p :: v.map assignSyntax) = _
    rw [roles_start hl hp, ← hav, h3]; rfl
  obtain ⟨k1, k2⟩ := same_end hm hm' hr hr' (by simp [elementCount, Role.isElement]) (over_end ho over_note)
  refine ⟨e', he', k1, fun hd => k2 ?_⟩
  intro c c' s w s' w' hc hc' hg hg'
  rw [last_single hc'] at hg'
  obtain ⟨r, m, g1, g2, g3⟩ := c26 h hr
  rw [upTo_point hp] at g2
  rw [last_change_unique hc g2] at hg
  obtain ⟨x1, x2⟩ := gives_unique hg g3
  obtain ⟨y1, y2⟩ := gives_unique hg' (hd r g1)
  exact ⟨x1.trans y1.symm, x2.trans y2.symm⟩

/-! ### Joining -/

theorem about_point (mid x y : List (Token × Role)) (p : Token) : about (mid ++ (p, .head) :: x) = about (mid ++ (p, .head) :: y) := by
  unfold about
  induction mid with
  | nil => simp [Role.isElement]
  | cons m mid ih => simp only [List.cons_append, List.takeWhile_cons, ih]

theorem upTo_same (b mid x y : List (Token × Role)) (p : Token) : upTo b (mid ++ (p, .head) :: x) = upTo b (mid ++ (p, .head) :: y) := by
  have h : ∀ z : List (Token × Role), ∃ m rest, (mid ++ (p, Role.head) :: z).dropWhile (!·.2.isElement) = m :: rest ∧
      m = ((mid ++ [(p, Role.head)]).dropWhile (!·.2.isElement)).head?.getD (p, .head) := by
    intro z
    induction mid with
    | nil => exact ⟨(p, .head), z, by simp [Role.isElement], by simp [Role.isElement]⟩
    | cons m mid ih =>
      cases hm : m.2.isElement with
      | true => exact ⟨m, mid ++ (p, .head) :: z, by simp [hm], by simp [hm]⟩
      | false => simpa [hm] using ih
  obtain ⟨m, rest, h1, h2⟩ := h x
  obtain ⟨m', rest', h1', h2'⟩ := h y
  unfold upTo
  rw [about_point mid x y p, h1, h1', h2, h2']

theorem climb_same {mid x : List (Token × Role)} (y : List (Token × Role)) {p : Token} {t : Str} {n : Int}
    (h : ClimbTo (mid ++ (p, .head) :: x) t n F) : ClimbTo (mid ++ (p, .head) :: y) t n F := by
  obtain ⟨s, l, rest, he, h⟩ := h
  match mid, he with
  | [], he => cases he
  | [_], he => cases he
  | _ :: _ :: mid, he => cases he; exact ⟨_, _, _, rfl, h⟩

theorem over_same {b mid x y : List (Token × Role)} {p : Token} (hp : p.base = .POINT) :
    Overlooked b (mid ++ (p, .head) :: x) ↔ Overlooked b (mid ++ (p, .head) :: y) := by
  have : nextVfr (mid ++ (p, .head) :: x) = nextVfr (mid ++ (p, .head) :: y) := by
    match mid with
    | [] => cases x <;> cases y <;> simp [nextVfr, hp]
    | [_] => simp [nextVfr, hp]
    | m :: m' :: mid => simp [nextVfr]
  rw [← overlooked_iff, ← overlooked_iff, this]

/-- Two field 15s with a common beginning up to a point. -/
theorem same_beginning {ts ts' : List Token} {l l' : List (Record F)} (h : Meaning ts l) (h' : Meaning ts' l')
    {a x y : List (Token × Role)} {p : Token} (hp : p.base = .POINT) (hr : roles ts = a ++ (p, .head) :: x)
    (hr' : roles ts' = a ++ (p, .head) :: y) (ht : ts.head?.map (·.base) = ts'.head?.map (·.base)) :
    AllSameButCourse (l.take (elementCount a + 1)) (l'.take (elementCount a + 1)) := by
  have hl : elementCount a + 1 ≤ l.length := by rw [h.count, hr, count_mid]; omega
  have hl' : elementCount a + 1 ≤ l'.length := by rw [h'.count, hr', count_mid]; omega
  refine ⟨by simp [hl, hl'], fun i r r' h1 h2 => ?_⟩
  have hi : i < elementCount a + 1 := by
    have := (List.getElem?_eq_some_iff.1 h1).1
    simp at this; omega
  rw [List.getElem?_take_of_lt hi] at h1 h2
  have key : unaim r = unaim r' := by
    cases i with
    | zero =>
      obtain ⟨d, k1, k2⟩ := h.departure
      obtain ⟨d', k1', k2'⟩ := h'.departure
      rw [h1] at k1; rw [h2] at k1'
      cases k1; cases k1'
      obtain ⟨n1, n2, n3, n4, n5⟩ := k2.name
      obtain ⟨n1', n2', n3', n4', n5'⟩ := k2'.name
      obtain ⟨p1, p2, p3⟩ := k2.noPlace
      obtain ⟨p1', p2', p3'⟩ := k2'.noPlace
      have f := k2'.filled
      rw [hr', upTo_same [] a y x p, about_point a y x p, ← hr] at f
      exact unaim_eq (n1.trans n1'.symm) (n2.trans n2'.symm) (n3.trans n3'.symm) (n4.trans n4'.symm) (n5.trans n5'.symm)
        (filled_unique k2.filled f) (k2.rules.trans (by rw [ht]; exact k2'.rules.symm)) (k2.text.trans k2'.text.symm)
        ⟨k2.noClimb.1.trans k2'.noClimb.1.symm, k2.noClimb.2.trans k2'.noClimb.2.symm⟩ ⟨p1.trans p1'.symm, by rw [p2, p3, p2', p3']⟩
    | succ k =>
      obtain ⟨pre, m, aft, rfl, e1, rfl⟩ := split_at a k (by omega)
      obtain ⟨d, k1, k2⟩ := h.route pre m (aft ++ (p, .head) :: x) (by simp [hr]) e1
      obtain ⟨d', k1', k2'⟩ := h'.route pre m (aft ++ (p, .head) :: y) (by simp [hr']) e1
      rw [h1] at k1; rw [h2] at k1'
      cases k1; cases k1'
      have f := k2'.filled
      rw [upTo_same (pre ++ [m]) aft y x p, about_point aft y x p] at f
      have hf := filled_unique k2.filled f
      exact unaim_of_calm (element_calm k2 k2' (about_point aft x y p) (fun _ _ h => climb_same y h) (over_same hp))
        k2.filled f ⟨hf.1, hf.2.1⟩
  show r' = { r with bearing := r'.bearing, distance := r'.distance }
  cases r; cases r'
  simp only [unaim, Record.mk.injEq] at key ⊢
  simp_all

/-- **C71** Two routes can be joined at a point: if one that ends in the point and one that begins with it (behind any SPEED/LEVEL) are
accepted, so is the first followed by what the second has behind the point. It has the elements of the first up to the point (the
courses of the last may differ) and then those of the second (their speeds and levels may differ, unless the SPEED/LEVEL of the second is
the one in force before the point). -/
theorem c71_join {frames frames1 frames2 : Nat} {u v : List Token} {p l : Token} {e1 e2 : Ers F}
    (h1 : parseF15 frames1 (Ers.new : Ers F) ⟨u ++ [p], 0⟩ = .ok (true, e1))
    (h2 : parseF15 frames2 (Ers.new : Ers F) ⟨l :: p :: v, 0⟩ = .ok (true, e2))
    (hne : ∀ t ∈ u ++ p :: v, t.text ≠ [])
    (hr : (roles (typedTokens ⟨u ++ [p], 0⟩)).getLast? = some (assignSyntax p, .head)) (hp : (assignSyntax p).base = .POINT)
    (hl : (assignSyntax l).base = .SPEED_ALTITUDE) (hf : 4 * (u.length + v.length + 1) ≤ frames) :
    ∃ e n, parseF15 frames (Ers.new : Ers F) ⟨u ++ p :: v, 0⟩ = .ok (true, e) ∧ e1.elements.length = n + 2 ∧
      AllSameButCourse (e1.elements.take n) (e.elements.take n) ∧
      SameButSpeeds (e.elements.drop n) (e2.elements.drop 1) ∧
      ((∀ d, e1.elements[n - 1]? = some d → Gives (assignSyntax l) d.speed d.altitude) →
        e.elements.drop n = e2.elements.drop 1) := by
  have hT : ∀ x ∈ typedTokens ⟨u ++ [p], 0⟩, Typed x := fun x hx => typed_map hx
  obtain ⟨as, hs⟩ := (sentence_iff hT).1 (c22_sound _ h1)
  have hT2 : ∀ x ∈ typedTokens ⟨l :: p :: v, 0⟩, Typed x := fun x hx => typed_map hx
  obtain ⟨as2, hs2⟩ := (sentence_iff hT2).1 (c22_sound _ h2)
  obtain ⟨as', hv⟩ : ∃ as', Run (.point (isFixed (assignSyntax p))) (v.map assignSyntax) as' := by
    have hs2' : SentRun (assignSyntax l :: assignSyntax p :: v.map assignSyntax) as2 := hs2
    generalize v.map assignSyntax = w at hs2'
    cases hs2' with
    | vfr hb _ => rw [hl] at hb; cases hb
    | ifr _ _ _ h =>
      generalize hq : Phase.adep = q at h
      cases h with
      | truncate _ hb | dct _ hb | route _ hb | climb _ hb | cruise _ hb | stay _ hb | break_ _ hb => rw [hp] at hb; cases hb
      | star _ hb => rcases hb with hb | ⟨hb, _⟩ <;> rw [hp] at hb <;> cases hb
      | sid hb => rcases hb with hb | hb <;> rw [hp] at hb <;> cases hb
      | point _ _ _ h => exact ⟨_, h⟩
      | level | vfr | word | resume | resumeIfr | resumeVfr => cases hq
  obtain ⟨before, hr⟩ := List.getLast?_eq_some_iff.1 hr
  obtain ⟨⟨as3, hs3⟩, hr3⟩ := sent_join hs hp hv ⟨before, hr⟩
  have hts : typedTokens ⟨u ++ [p], 0⟩ ++ v.map assignSyntax = typedTokens ⟨u ++ p :: v, 0⟩ := by simp [typedTokens]
  rw [hts] at hs3 hr3
  rw [hr, List.append_assoc] at hr3
  have hT3 : ∀ x ∈ typedTokens ⟨u ++ p :: v, 0⟩, Typed x := fun x hx => typed_map hx
  obtain ⟨e, he⟩ := (c22 (F := F) (frames := frames) ⟨u ++ p :: v, 0⟩ (by simp; omega)).2 ((sentence_iff hT3).2 ⟨_, hs3⟩)
  have m1 := c68 h1 (fun t ht => hne t (by simp at ht ⊢; rcases ht with h | h <;> simp [h]))
  have m2 := c68 h2 (fun t ht => by
    rcases List.mem_cons.1 ht with rfl | ht
    · exact level_ne_nil hl
    · exact hne t (by simp only [List.mem_append]; exact .inr ht))
  have m := c68 he hne
  have hr2 : roles (typedTokens ⟨l :: p :: v, 0⟩) = [(assignSyntax l, .note)] ++ ([(assignSyntax p, .head)] ++ mark (.route false) (v.map assignSyntax)) := by
    show roles (assignSyntax l :: assignSyntax p :: v.map assignSyntax) = _
    rw [roles_start hl hp]; rfl
  have ho : ∀ z, ¬ Overlooked before z := by
    rintro z ⟨⟨b, w, rfl, hw⟩, _⟩
    exact sent_noIfr hs b w (assignSyntax p) (by simp [hr]) hw
  obtain ⟨k1, k2⟩ := same_end m m2 hr3 hr2 (by simp [elementCount, Role.isElement]) (over_end (ho _) over_note)
  have k3 := same_beginning m1 m hp hr hr3 (by cases u <;> simp [typedTokens])
  refine ⟨e, elementCount before + 1, he, ?_, k3, k1, fun hd => k2 ?_⟩
  · rw [m1.count, hr, count_mid]; simp [elementCount, Role.isElement]
  · intro c c' s w s' w' hc hc' hg hg'
    rw [last_single hc'] at hg'
    obtain ⟨r, x, g1, g2, g3⟩ := c26 h1 hr
    rw [upTo_point hp] at g2
    rw [last_change_unique hc g2] at hg
    obtain ⟨x1, x2⟩ := gives_unique hg g3
    obtain ⟨y1, y2⟩ := gives_unique hg' (hd r g1)
    exact ⟨x1.trans y1.symm, x2.trans y2.symm⟩

/-! ### Examples -/

/-- A token with the given text (the indices do not matter here). -/
def exTok (s : Str) : Token := { text := s, start := 0, stop := s.length, base := .UNKNOWN, sub := .UNKNOWN }

/-- The first half of a route, up to the point `PNT`. -/
def exFirst : List Token := [exTok (py! "N0450F350"), exTok (py! "LNZ"), exTok (py! "UL856")]

/-- What follows `PNT`: a change of level, a stay, a position, free text. -/
def exSecond : List Token := [py! "/", py! "N0460F360", py! "DCT", py! "46N050W", py! "STAY1", py! "/", py! "0130", py! "VFR", py! "SIGHT"].map exTok

/-- The route can be cut at `PNT` (the hypotheses of `c71_cut` hold). -/
example : ∃ e e' : Ers Rat, parseF15 100 Ers.new ⟨exFirst ++ exTok (py! "PNT") :: exSecond, 0⟩ = .ok (true, e) ∧
    parseF15 100 Ers.new ⟨exTok (py! "N0450F350") :: exTok (py! "PNT") :: exSecond, 0⟩ = .ok (true, e') ∧
    e.elements.length = 8 ∧ e.elements.drop 3 = e'.elements.drop 1 := by
  have hacc : ((parseF15 100 (Ers.new : Ers Rat) ⟨exFirst ++ exTok (py! "PNT") :: exSecond, 0⟩).toOption.map fun x =>
      (x.1, x.2.elements.length, x.2.elements[2]?.map fun r => (r.speed, r.altitude))) =
      some (true, 8, some (py! "N0450", py! "F350")) := by decide +kernel
  cases h : parseF15 100 (Ers.new : Ers Rat) ⟨exFirst ++ exTok (py! "PNT") :: exSecond, 0⟩ with
  | error => rw [h] at hacc; simp [Except.toOption] at hacc
  | ok x =>
    obtain ⟨b, e⟩ := x
    rw [h] at hacc
    simp only [Except.toOption, Option.map_some, Option.some.injEq, Prod.mk.injEq] at hacc
    obtain ⟨rfl, hlen, hd⟩ := hacc
    obtain ⟨e', h1, _, h2⟩ := c71_cut (frames' := 100) (l := exTok (py! "N0450F350"))
      (before := [(assignSyntax (exTok (py! "N0450F350")), .note), (assignSyntax (exTok (py! "LNZ")), .head), (assignSyntax (exTok (py! "UL856")), .head)])
      (after := (roles (typedTokens ⟨exFirst ++ exTok (py! "PNT") :: exSecond, 0⟩)).drop 4)
      h (by decide +kernel) (by decide +kernel) (by decide +kernel) (by decide +kernel)
      (fun ho => by
        obtain ⟨⟨b, w, hb, _⟩, _⟩ := ho
        have := congrArg List.getLast? hb
        simp at this)
      (by decide +kernel) (fun a b hab ha hb => by
        have hs := speed_split hab ha
        have : b = py! "F350" := by rw [← hs.2]; decide +kernel
        subst this
        exact (gran_iff (lv := py! "F350")).1 (by decide +kernel)) (by decide +kernel)
    refine ⟨e, e', rfl, h1, hlen, h2 ?_⟩
    intro d hd'
    have hd' : e.elements[2]? = some d := hd'
    rw [hd'] at hd
    simp only [Option.map_some, Option.some.injEq, Prod.mk.injEq] at hd
    rw [hd.1, hd.2]
    refine ⟨.inr ⟨'N', py! "0450", by decide, rfl, rfl, by simp [Digit]⟩, ?_⟩
    have hb : (assignSyntax (exTok (py! "N0450F350"))).base = .SPEED_ALTITUDE := by decide +kernel
    rw [hb]
    exact ⟨.inl ⟨'F', py! "350", by decide, rfl, rfl, by simp [Digit]⟩, by decide +kernel⟩

/-- Two routes joined at `PNT` (the hypotheses of `c71_join` hold). -/
example : ∃ e : Ers Rat, ∃ n, parseF15 100 Ers.new ⟨exFirst ++ exTok (py! "PNT") :: exSecond, 0⟩ = .ok (true, e) ∧ n = 3 ∧ e.elements.length = 8 := by
  have ha : ((parseF15 100 (Ers.new : Ers Rat) ⟨exFirst ++ [exTok (py! "PNT")], 0⟩).toOption.map fun x => (x.1, x.2.elements.length)) =
      some (true, 5) := by decide +kernel
  have hb : ((parseF15 100 (Ers.new : Ers Rat) ⟨exTok (py! "M082F290") :: exTok (py! "PNT") :: exSecond, 0⟩).toOption.map fun x =>
      (x.1, x.2.elements.length)) = some (true, 6) := by decide +kernel
  cases h1 : parseF15 100 (Ers.new : Ers Rat) ⟨exFirst ++ [exTok (py! "PNT")], 0⟩ with
  | error => rw [h1] at ha; simp [Except.toOption] at ha
  | ok x =>
    cases h2 : parseF15 100 (Ers.new : Ers Rat) ⟨exTok (py! "M082F290") :: exTok (py! "PNT") :: exSecond, 0⟩ with
    | error => rw [h2] at hb; simp [Except.toOption] at hb
    | ok y =>
      obtain ⟨b1, e1⟩ := x
      obtain ⟨b2, e2⟩ := y
      rw [h1] at ha
      rw [h2] at hb
      simp only [Except.toOption, Option.map_some, Option.some.injEq, Prod.mk.injEq] at ha hb
      obtain ⟨rfl, ha⟩ := ha
      obtain ⟨rfl, hb⟩ := hb
      obtain ⟨e, n, k1, k2, k3, k4, _⟩ := c71_join (frames := 100) h1 h2 (by decide +kernel) (by decide +kernel) (by decide +kernel)
        (by decide +kernel) (by decide +kernel)
      have hn : n = 3 := by omega
      refine ⟨e, n, k1, hn, ?_⟩
      have h4 := congrArg List.length k4
      have h3 := k3.1
      subst hn
      simp only [List.length_map, List.length_drop, List.length_take] at h4 h3
      omega

/-- A point that is overlooked is no place to cut: the whole is accepted although the position is out of range, the rest is not. -/
example : check (py! "N0450F350 LNZ VFR X IFR 99N020W/N0120VFR Y") (fun b _ => b) = true ∧
    check (py! "N0450F350 99N020W/N0120VFR Y") (fun b _ => b) = false := by decide +kernel

end F15
