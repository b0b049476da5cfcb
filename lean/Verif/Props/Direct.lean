import Verif.Props.Insert
import Verif.Spec.Direct
import Verif.Props.Classify
/-!
# C74: a DCT between two points may be put in or left out
-/

namespace F15
open Spec

set_option linter.unusedSectionVars false
variable {F : Type} [PyFloat F]

/-- What can be read behind a point can be read behind a DCT, if it may follow a DCT. -/
theorem run_direct {f : Bool} {q : Phase} (hq : q = .point f ∨ q = .stay) {v : List Token} {as : List Act} (h : Run q v as)
    (hv : MayFollowDirect v) : ∃ as, Run .dct v as := by
  have ok : ∀ {t : Token}, t.base = .POINT ∨ t.base = .C ∨ t.base = .TRUNCATE → Phase.dct.allows t = true := by
    intro t h
    rcases h with h | h | h <;> simp [Phase.allows, h]
  have no : ∀ {t : Token} {l : List Token}, MayFollowDirect (t :: l) → ∀ {b : BaseType}, t.base = b → b ≠ .POINT → b ≠ .C → b ≠ .TRUNCATE → False := by
    intro t l h b hb h1 h2 h3
    rcases h t rfl with h | h | h <;> rw [hb] at h
    · exact h1 h
    · exact h2 h
    · exact h3 h
  cases h with
  | stop => exact ⟨_, .stop _⟩
  | truncate hq' hb => exact ⟨_, .truncate (ok (by simp [hb])) hb⟩
  | star hq' hb => rcases hb with hb | ⟨hb, _⟩ <;> exact (no hv hb (by simp) (by simp) (by simp)).elim
  | sid | word | resume | resumeIfr | resumeVfr => rcases hq with h | h <;> cases h
  | dct hq' hb h => exact (no hv hb (by simp) (by simp) (by simp)).elim
  | route hq' hb h => exact (no hv hb (by simp) (by simp) (by simp)).elim
  | point hq' hb hn h => exact ⟨_, .point (ok (by simp [hb])) hb hn h⟩
  | climb hq' hb h => exact ⟨_, .climb (ok (by simp [hb])) hb h⟩
  | cruise hq' hb h1 h2 h3 h4 h => exact ⟨_, .cruise (ok (by simp [hb])) hb h1 h2 h3 h4 h⟩
  | stay hq' hb h1 h2 h => exact (no hv hb (by simp) (by simp) (by simp)).elim
  | break_ hq' hb h => exact (no hv hb (by simp) (by simp) (by simp)).elim
  | level hb => exact (no hv hb (by simp) (by simp) (by simp)).elim
  | vfr hb => exact (no hv hb (by simp) (by simp) (by simp)).elim

/-- What is read behind a DCT may follow it, and can be read behind a point. -/
theorem direct_run {f : Bool} {q : Phase} (hq : q = .point f ∨ q = .stay) {v : List Token} {as : List Act} (h : Run .dct v as) :
    MayFollowDirect v ∧ ∃ as, Run q v as := by
  have ok : ∀ {t : Token}, t.base = .POINT ∨ t.base = .C ∨ t.base = .TRUNCATE → q.allows t = true := by
    intro t h
    rcases hq with rfl | rfl <;> rcases h with h | h | h <;> simp [Phase.allows, h]
  have me : ∀ {t : Token} {l : List Token}, t.base = .POINT ∨ t.base = .C ∨ t.base = .TRUNCATE → MayFollowDirect (t :: l) := by
    intro t l h x hx
    cases hx; exact h
  generalize hd : Phase.dct = d at h
  cases h with
  | stop => exact ⟨(fun t ht => by cases ht), _, .stop _⟩
  | truncate hq' hb => exact ⟨me (by simp [hb]), _, .truncate (ok (by simp [hb])) hb⟩
  | star hq' hb => subst hd; rcases hb with hb | ⟨hb, _⟩ <;> simp [Phase.allows, hb] at hq'
  | sid | word | resume | resumeIfr | resumeVfr | level | vfr => cases hd
  | dct hq' hb h | route hq' hb h | stay hq' hb | break_ hq' hb => subst hd; simp [Phase.allows, hb] at hq'
  | point hq' hb hn h => exact ⟨me (by simp [hb]), _, .point (ok (by simp [hb])) hb hn h⟩
  | climb hq' hb h => exact ⟨me (by simp [hb]), _, .climb (ok (by simp [hb])) hb h⟩
  | cruise hq' hb h1 h2 h3 h4 h => exact ⟨me (by simp [hb]), _, .cruise (ok (by simp [hb])) hb h1 h2 h3 h4 h⟩

/-- What is read behind an ATS route may follow a DCT, and can be read behind a point. -/
theorem route_run {f : Bool} {q : Phase} (hq : q = .point f ∨ q = .stay) {v : List Token} {as : List Act} (h : Run .route v as) :
    MayFollowDirect v ∧ ∃ as, Run q v as := by
  have ok : ∀ {t : Token}, t.base = .POINT ∨ t.base = .C ∨ t.base = .TRUNCATE → q.allows t = true := by
    intro t h
    rcases hq with rfl | rfl <;> rcases h with h | h | h <;> simp [Phase.allows, h]
  have me : ∀ {t : Token} {l : List Token}, t.base = .POINT ∨ t.base = .C ∨ t.base = .TRUNCATE → MayFollowDirect (t :: l) := by
    intro t l h x hx
    cases hx; exact h
  generalize hd : Phase.route = d at h
  cases h with
  | stop => exact ⟨(fun t ht => by cases ht), _, .stop _⟩
  | truncate hq' hb => exact ⟨me (by simp [hb]), _, .truncate (ok (by simp [hb])) hb⟩
  | star hq' hb => subst hd; rcases hb with hb | ⟨hb, _⟩ <;> simp [Phase.allows, hb] at hq'
  | sid | word | resume | resumeIfr | resumeVfr | level | vfr => cases hd
  | dct hq' hb h | route hq' hb h | stay hq' hb | break_ hq' hb => subst hd; simp [Phase.allows, hb] at hq'
  | point hq' hb hn h => exact ⟨me (by simp [hb]), _, .point (ok (by simp [hb])) hb hn h⟩
  | climb hq' hb h => exact ⟨me (by simp [hb]), _, .climb (ok (by simp [hb])) hb h⟩
  | cruise hq' hb h1 h2 h3 h4 h => exact ⟨me (by simp [hb]), _, .cruise (ok (by simp [hb])) hb h1 h2 h3 h4 h⟩

theorem mark_direct {d : Token} (hd : d.base = .DCT ∨ d.base = .ROUTE) (v : List Token) : mark (.route false) (d :: v) = (d, .head) :: mark (.route false) v := by
  rcases hd with hd | hd <;> rw [mark_route (by simp [hd]), show roleOf false d = .head by simp [roleOf, hd], show modeAfter d = .route false by simp [modeAfter, hd]]

theorem same_loc {r r' : Record F} (h : SameButCourse r r') : LocEq r r' := by
  rw [show r' = _ from h]; exact ⟨rfl, rfl, rfl⟩

theorem same_course {r r' : Record F} (h : SameButCourse r r') (hc : (r.bearing, r.distance) = (r'.bearing, r'.distance)) : r = r' := by
  have h' : r' = { r with bearing := r'.bearing, distance := r'.distance } := h
  simp only [Prod.mk.injEq] at hc
  rw [h', ← hc.1, ← hc.2]

theorem split_get {α : Type} {l : List α} {i : Nat} {r : α} (h : l[i]? = some r) : l = l.take i ++ r :: l.drop (i + 1) := by
  obtain ⟨hi, hg⟩ := List.getElem?_eq_some_iff.1 h
  rw [← hg, List.getElem_cons_drop, List.take_append_drop]

theorem course_first {r r' q q' : Record F} {l l' : List (Record F)} (h : LocEq r r') (hq : LocEq q q') (hv : q.latLongValid = true) :
    courseOf r (q :: l) = courseOf r' (q' :: l') := by
  obtain ⟨h1, h2, h3⟩ := h
  obtain ⟨k1, k2, k3⟩ := hq
  simp only [courseOf, course, h1, h2, h3, k1, k2, k3, hv, if_true]

theorem course_second {r r' q x : Record F} {l l' : List (Record F)} (h : LocEq r r') (hx : x.latLongValid = false) (hv : q.latLongValid = true) :
    courseOf r (q :: l) = courseOf r' (x :: q :: l') := by
  obtain ⟨h1, h2, h3⟩ := h
  simp [courseOf, course, h1, h2, h3, hx, hv]

/-- The elements of the two fields 15. -/
theorem direct_same {ts ts' : List Token} {l l' : List (Record F)} (m1 : Meaning ts l) (m2 : Meaning ts' l')
    {before n junk rest : List (Token × Role)} {p d : Token} (hp : p.base = .POINT) (hd : d.base = .DCT ∨ d.base = .ROUTE)
    (hr : roles ts = before ++ (p, .head) :: (n ++ junk ++ rest)) (hr' : roles ts' = before ++ (p, .head) :: (n ++ (d, .head) :: (junk ++ rest)))
    (ht : ts.head?.map (·.base) = ts'.head?.map (·.base)) (hsn : ∀ x ∈ n, x.2 = .note) (hj : Idle junk) (hfr : Fresh rest)
    (hdl : ¬ isLatLong d.sub) (ho : ¬ Overlooked before (n ++ junk ++ rest)) (ho' : ¬ Overlooked before (n ++ (d, .head) :: (junk ++ rest))) :
    WithConnector d.base (elementCount before + 1) d l l' := by
  have hjn : ∀ x ∈ junk, x.2 = .note := fun x hx => (hj x hx).1
  have hbeg := same_beginning m1 m2 hp hr hr' ht
  have hfx : Fresh ((d, Role.head) :: (junk ++ rest)) := fresh_cons rfl (by rcases hd with hd | hd <;> simp [hd])
  obtain ⟨r, g1, g2⟩ := m1.route before _ _ hr rfl
  obtain ⟨r', g1', g2'⟩ := m2.route before _ _ hr' rfl
  have hpt : unaim r = unaim r' := point_same hp hsn hj hfr hfx g2 g2' ho ho'
  have hr2 : roles ts' = (before ++ (p, .head) :: n) ++ (d, .head) :: (junk ++ rest) := by rw [hr']; simp
  have c1 : elementCount (before ++ (p, .head) :: n) = elementCount before + 1 := by
    rw [count_mid, show (p, Role.head) :: n = [(p, Role.head)] ++ n by rfl, count_mid, count_note hsn]; rfl
  obtain ⟨x, x1, x2⟩ := m2.route _ _ _ hr2 rfl
  rw [c1] at x1
  have hra : roles ts = (before ++ (p, .head) :: n ++ junk) ++ rest := by rw [hr]; simp
  have hrb : roles ts' = (before ++ (p, .head) :: n ++ [(d, .head)] ++ junk) ++ rest := by rw [hr']; simp
  have c3 : elementCount (before ++ (p, .head) :: n ++ junk) = elementCount before + 1 := by rw [count_mid, c1, count_note hjn]
  have c4 : elementCount (before ++ (p, .head) :: n ++ [(d, .head)] ++ junk) = elementCount before + 2 := by
    rw [count_mid, count_note hjn, count_mid, c1]; rfl
  have hend := same_tail m1 m2 hra hrb (by rw [c3]; exact g1) (by rw [c4]; exact x1)
    (by rw [g2.rules, x2.rules]; rcases hd with hd | hd <;> simp [elementRules, hp, hd])
    (by
      rcases hfr with h | ⟨m, r, h, hm, _⟩
      · exact .inl h
      · right; rw [h]; simp [elementCount, hm])
    (by
      intro mid m aft he
      cases mid with
      | cons => exact over_mid (by simp)
      | nil =>
        rw [List.append_nil, List.append_nil]
        have o1 : ¬ Overlooked (before ++ (p, .head) :: n ++ junk) aft := by
          have := not_over (b := before) (m := (p, Role.head)) (n := n ++ junk) (aft := aft) (by simp) (by
            intro x hx
            rcases List.mem_append.1 hx with h | h
            · exact hsn x h
            · exact hjn x h)
          simpa using this
        have o2 : ¬ Overlooked (before ++ (p, .head) :: n ++ [(d, .head)] ++ junk) aft := by
          have := not_over (b := before ++ (p, .head) :: n) (m := (d, Role.head)) (n := junk) (aft := aft) (by simp) hjn
          simpa using this
        exact ⟨fun h => absurd h o1, fun h => absurd h o2⟩)
  rw [c3, c4] at hend
  -- the change in force
  obtain ⟨c0, f1, f2⟩ := g2'.filled.change
  rw [upTo_noted hsn hfx] at f1
  have f1 : LastChange (before ++ (p, .head) :: n) c0 := by simpa using f1
  have hdi : isChange (d, .head) = false := by rcases hd with hd | hd <;> simp [isChange, hd]
  have change_d : ∀ {c}, LastChange (before ++ (p, .head) :: n ++ [(d, .head)]) c → c = c0 := by
    intro c hc
    rcases last_change_append hc with ⟨y, z, hh, hch, _⟩ | ⟨_, hc⟩
    · cases y with
      | nil => cases hh; rw [hdi] at hch; cases hch
      | cons _ y => cases y <;> cases hh
    · exact last_change_unique hc f1
  have drest : l.drop (elementCount before + 1 + 1) = l'.drop (elementCount before + 1 + 2) := by
    refine hend.2 ?_
    intro c c' sp al sp' al' hc hc' hgc hgc'
    rw [change_idle hj] at hc hc'
    rw [last_change_unique hc f1] at hgc
    rw [change_d hc'] at hgc'
    exact gives_unique hgc hgc'
  have hbefore : AllSameButCourse (l.take (elementCount before + 1 + 1)) (l'.take (elementCount before + 1 + 1)) := by
    obtain ⟨b1, b2⟩ := hbeg
    have l1 : elementCount before + 2 ≤ l.length := by rw [m1.count, hra, count_mid, c3]; omega
    have l2 : elementCount before + 2 ≤ l'.length := by rw [m2.count, hrb, count_mid, c4]; omega
    refine ⟨by simp [l1, l2], fun i e e' h1 h2 => ?_⟩
    have hi : i < elementCount before + 2 := by
      have := (List.getElem?_eq_some_iff.1 h1).1
      simp at this; omega
    rw [List.getElem?_take_of_lt hi] at h1 h2
    by_cases hi' : i < elementCount before + 1
    · exact b2 i e e' (by rw [List.getElem?_take_of_lt hi']; exact h1) (by rw [List.getElem?_take_of_lt hi']; exact h2)
    · have : i = elementCount before + 1 := by omega
      subst this
      rw [h1] at g1; rw [h2] at g1'
      cases g1; cases g1'
      exact same_unaim hpt
  obtain ⟨n1, n2, n3, n4, n5⟩ := x2.name
  have hxl := x2.noPlace (.inl hdl)
  have hsp : x.speed = r'.speed ∧ x.altitude = r'.altitude := by
    obtain ⟨c, k1, k2⟩ := x2.filled.change
    rw [upTo_noted hjn hfr, change_idle hj] at k1
    rw [change_d k1] at k2
    exact gives_unique k2 f2
  refine ⟨hbefore, ⟨r', x, g1', x1, ?_, n1, n2, ?_, ?_, ?_, ?_, hxl.1⟩, drest, ?_⟩
  · rw [n3]; rcases hd with hd | hd <;> simp [hd]
  · rw [n4]; rcases hd with hd | hd <;> simp [hd]
  · rw [x2.rules]; rcases hd with hd | hd <;> simp [elementRules, hd]
  · exact hsp.1
  · exact hsp.2
  · intro e q he hq hel hql
    have hx' : (l.drop (elementCount before + 1 + 1))[0]? = some q := by rw [List.getElem?_drop]; exact hq
    have hq' : l'[elementCount before + 1 + 2]? = some q := by
      rw [drest, List.getElem?_drop] at hx'; exact hx'
    obtain ⟨b1, b2⟩ := hbefore
    apply List.ext_getElem?
    intro i
    by_cases hi : i < elementCount before + 1 + 1
    · have l1 : i < l.length := by
        have := (List.getElem?_eq_some_iff.1 he).1; omega
      have l2 : i < l'.length := by
        have := (List.getElem?_eq_some_iff.1 hq').1; omega
      have e1 := List.getElem?_eq_getElem l1
      have e2 := List.getElem?_eq_getElem l2
      have t1 : ∀ k, k < elementCount before + 1 + 1 → (l.take (elementCount before + 1 + 1))[k]? = l[k]? := fun k hk => List.getElem?_take_of_lt hk
      have t2 : ∀ k, k < elementCount before + 1 + 1 → (l'.take (elementCount before + 1 + 1))[k]? = l'[k]? := fun k hk => List.getElem?_take_of_lt hk
      rw [t1 i hi, t2 i hi, e1, e2]
      congr 1
      have same := b2 i _ _ (by rw [t1 i hi]; exact e1) (by rw [t2 i hi]; exact e2)
      refine same_course same ?_
      rw [m1.course _ _ _ (split_get e1), m2.course _ _ _ (split_get e2)]
      have loc : ∀ k a b, k < elementCount before + 1 + 1 → l[k]? = some a → l'[k]? = some b → LocEq a b := fun k a b hk ha hb =>
        same_loc (b2 k a b (by rw [t1 k hk]; exact ha) (by rw [t2 k hk]; exact hb))
      have hloc := loc i _ _ hi e1 e2
      have lone : elementCount before + 1 + 1 < l.length := (List.getElem?_eq_some_iff.1 hq).1
      have ltwo : elementCount before + 1 + 2 < l'.length := (List.getElem?_eq_some_iff.1 hq').1
      have next : ∀ k, k < l.length → l.drop k = l[k]?.toList ++ l.drop (k + 1) := fun k hk => by
        rw [List.getElem?_eq_getElem hk]; exact (List.getElem_cons_drop hk).symm
      have next' : ∀ k, k < l'.length → l'.drop k = l'[k]?.toList ++ l'.drop (k + 1) := fun k hk => by
        rw [List.getElem?_eq_getElem hk]; exact (List.getElem_cons_drop hk).symm
      by_cases h1 : i = elementCount before + 1
      · subst h1
        rw [next _ lone, hq, next' (elementCount before + 1 + 1) (by omega), x1, next' _ ltwo, hq']
        exact course_second hloc hxl.1 hql
      · by_cases h2 : i = elementCount before
        · subst h2
          rw [next _ (by omega), he, next' (elementCount before + 1) (by omega), g1']
          exact course_first hloc (loc _ _ _ (by omega) he g1') hel
        · have k1 : i + 1 < elementCount before + 1 := by omega
          have a1 := List.getElem?_eq_getElem (l := l) (i := i + 1) (by omega)
          have a2 := List.getElem?_eq_getElem (l := l) (i := i + 1 + 1) (by omega)
          have a1' := List.getElem?_eq_getElem (l := l') (i := i + 1) (by omega)
          have a2' := List.getElem?_eq_getElem (l := l') (i := i + 1 + 1) (by omega)
          refine courseOf_congr hloc ?_
          rw [next _ (by omega), a1, next _ (by omega), a2, next' _ (by omega), a1', next' _ (by omega), a2']
          exact .cons (loc _ _ _ (by omega) a1 a1') (.cons (loc _ _ _ (by omega) a2 a2') .nil)
    · rw [List.getElem?_eq_none (by simp; omega), List.getElem?_eq_none (by simp; omega)]

theorem direct_nowhere {d : Token} (ht : Typed d) (hd : d.base = .DCT ∨ d.base = .ROUTE) : ¬ isLatLong d.sub := by
  rcases typed_pair ht with h | h | ⟨x, hx, h1, h2⟩
  · rw [h.1] at hd; rcases hd with hd | hd <;> cases hd
  · rw [h.1] at hd; rcases hd with hd | hd <;> cases hd
  · have ha : table.all (fun x => decide ((x.base ≠ .DCT ∧ x.base ≠ .ROUTE) ∨ (x.sub ≠ .LL_DEG ∧ x.sub ≠ .LL_MIN ∧ x.sub ≠ .LLBD_DEG ∧ x.sub ≠ .LLBD_MIN))) = true := by decide +kernel
    have := of_decide_eq_true (List.all_eq_true.1 ha x hx)
    rcases this with h | h
    · rw [h1] at hd
      exact (hd.elim h.1 h.2).elim
    · rw [h2]; obtain ⟨k1, k2, k3, k4⟩ := h; simp [isLatLong, k1, k2, k3, k4]

theorem direct_name {b : BaseType} {n : Nat} {d : Token} {l l' : List (Record F)} (h : WithConnector b n (assignSyntax d) l l') : WithConnector b n d l l' := by
  obtain ⟨h1, ⟨p, a, k⟩, h2, h3⟩ := h
  have hse : (assignSyntax d).start = d.start ∧ (assignSyntax d).stop = d.stop := by
    rw [assignSyntax_eq]; split <;> exact ⟨rfl, rfl⟩
  exact ⟨h1, ⟨p, a, by simpa [assign_text, hse.1, hse.2] using k⟩, h2, h3⟩

theorem direct_base {d : Token} (hd : d.text = py! "DCT") : (assignSyntax d).base = .DCT := by
  have : getTokenType (py! "DCT") = (.DCT, .DCT) := by decide +kernel
  rw [assignSyntax_eq, hd]
  simp only [this]
  rw [if_neg (by decide)]

theorem follow_slash {v : List Token} (h : MayFollowDirect v) : ¬ Slashed v := by
  rintro ⟨x, r, rfl, hx⟩
  rcases h x rfl with h | h | h <;> rw [hx] at h <;> cases h

theorem direct_slash {d : Token} (hd : d.base = .DCT ∨ d.base = .ROUTE) {v : List Token} : ¬ Slashed (d :: v) := by
  rintro ⟨x, r, he, hx⟩
  cases he
  rcases hd with hd | hd <;> (rw [hd] at hx; cases hx)

/-- The roles at a point with remarks. -/
theorem roles_cut {ts : List Token} {u s v : List Token} {p : Token} {before after : List (Token × Role)}
    (hts : ts = u ++ p :: s ++ v) (hr : roles ts = before ++ (p, .head) :: after) (hlen : before.length = u.length) :
    before.map (·.1) = u ∧ after.map (·.1) = s ++ v := by
  have := roles_tokens ts
  rw [hr, hts] at this
  have h2 : before.map (·.1) ++ p :: after.map (·.1) = u ++ p :: (s ++ v) := by simpa using this
  have h3 := List.append_inj h2 (by simp [hlen])
  exact ⟨h3.1, by simpa using h3.2⟩

/-- **C74** A DCT may be put in between two points. Behind any point `p` of an accepted route that is looked at, and the remarks `s` about
it, a DCT can be inserted if a point, a cruise climb, the truncation `T` or nothing follows. The field 15 is accepted again, with one more
element, the DCT at the speed and level of `p`; all other elements stay the same. Only the courses of `p` and the elements before may
differ, and between two positions these stay the same as well. -/
theorem c74_put {frames frames' : Nat} {u s v : List Token} {p d : Token} {e : Ers F}
    (h : parseF15 frames (Ers.new : Ers F) ⟨u ++ p :: s ++ v, 0⟩ = .ok (true, e)) (hne : ∀ t ∈ u ++ p :: s ++ v, t.text ≠ [])
    {before after : List (Token × Role)} (hr : roles (typedTokens ⟨u ++ p :: s ++ v, 0⟩) = before ++ (assignSyntax p, .head) :: after)
    (hlen : before.length = u.length) (hp : (assignSyntax p).base = .POINT) (hs : Remarks (s.map assignSyntax))
    (hv : MayFollowDirect (v.map assignSyntax)) (hd0 : d.text = py! "DCT") (hf : 4 * (u ++ p :: s ++ d :: v).length ≤ frames') :
    ∃ e', parseF15 frames' (Ers.new : Ers F) ⟨u ++ p :: s ++ d :: v, 0⟩ = .ok (true, e') ∧
      WithDirect (elementCount before + 1) d e.elements e'.elements := by
  have hd := direct_base hd0
  have hT : ∀ l : List Token, ∀ x ∈ typedTokens ⟨l, 0⟩, Typed x := fun l x hx => typed_map hx
  obtain ⟨as, hsent⟩ := (sentence_iff (hT _)).1 (c22_sound _ h)
  obtain ⟨hbu, hav⟩ := roles_cut (u := u.map assignSyntax) (s := s.map assignSyntax) (v := v.map assignSyntax) (by simp [typedTokens]) hr (by simp [hlen])
  have hvs := follow_slash hv
  have ho := remarks_looked (b := before) hs hav fun t ht hx => by
    rcases hv t ht with h | h | h <;> rw [hx] at h <;> cases h
  obtain ⟨hn, ⟨as1, hrun⟩, hmark⟩ := sent_cut hsent hr hp ho
  rw [hav] at hrun hmark
  obtain ⟨ph, hph, ⟨as2, hrv⟩, hback⟩ := run_remarks hs hrun
  obtain ⟨junk, rest, hjr, hj, hfr⟩ := run_anew hph hrv fun t ht => by
    rcases hv t ht with h | h | h <;> simp [h]
  obtain ⟨as3, hrd⟩ := run_direct hph hrv hv
  have hpa : ph.allows (assignSyntax d) = true := by rcases hph with rfl | rfl <;> simp [Phase.allows, hd]
  obtain ⟨as5, hrw⟩ := hback _ _ (.dct hpa hd hrd)
  obtain ⟨⟨as6, hsent'⟩, hr'⟩ := sent_swap hsent hr hp hn hrw (by rw [hav]; exact slashed_remarks hs (direct_slash (.inl hd)) hvs)
  have hts : before.map (·.1) ++ assignSyntax p :: (s.map assignSyntax ++ assignSyntax d :: v.map assignSyntax) =
      typedTokens ⟨u ++ p :: s ++ d :: v, 0⟩ := by
    rw [hbu]; simp [typedTokens]
  rw [hts] at hsent' hr'
  obtain ⟨e', he'⟩ := (c22 (F := F) (frames := frames') ⟨u ++ p :: s ++ d :: v, 0⟩ (by simpa using hf)).2 ((sentence_iff (hT _)).2 ⟨_, hsent'⟩)
  have hdt : d.text ≠ [] := by rw [hd0]; simp
  have m1 := c68 h hne
  have m2 := c68 he' (by
    intro t ht
    simp only [List.mem_append, List.mem_cons] at ht
    rcases ht with (ht | ht | ht) | ht | ht
    · exact hne t (by simp [ht])
    · exact hne t (by simp [ht])
    · exact hne t (by simp [ht])
    · rw [ht]; exact hdt
    · exact hne t (by simp [ht]))
  have ha : after = notes (s.map assignSyntax) ++ junk ++ rest := by rw [← hmark, mark_remarks hs, hjr, List.append_assoc]
  rw [mark_remarks hs, mark_direct (.inl hd), hjr] at hr'
  rw [ha] at hr ho
  refine ⟨e', he', ?_⟩
  have := direct_same m1 m2 hp (.inl hd) hr hr' (by cases u <;> simp [typedTokens]) notes_note hj hfr (direct_nowhere (typed_assign d) (.inl hd)) ho
    (remarks_looked hs (v := ((assignSyntax d, Role.head) :: (junk ++ rest)).map (·.1)) (by simp [notes]) (by
      intro t ht
      cases ht
      rw [hd]; simp))
  rw [hd] at this
  exact direct_name this

/-- A DCT or an ATS route behind a point may be left out: the field 15 without it is accepted and has the same elements, but for this one. -/
theorem leave_connector {frames frames' : Nat} {u s v : List Token} {p d : Token} {e' : Ers F}
    (h : parseF15 frames (Ers.new : Ers F) ⟨u ++ p :: s ++ d :: v, 0⟩ = .ok (true, e')) (hne : ∀ t ∈ u ++ p :: s ++ d :: v, t.text ≠ [])
    {before after : List (Token × Role)} (hr : roles (typedTokens ⟨u ++ p :: s ++ d :: v, 0⟩) = before ++ (assignSyntax p, .head) :: after)
    (hlen : before.length = u.length) (hp : (assignSyntax p).base = .POINT) (hs : Remarks (s.map assignSyntax))
    (hd : (assignSyntax d).base = .DCT ∨ (assignSyntax d).base = .ROUTE) (hf : 4 * (u ++ p :: s ++ v).length ≤ frames') :
    ∃ e, parseF15 frames' (Ers.new : Ers F) ⟨u ++ p :: s ++ v, 0⟩ = .ok (true, e) ∧
      WithConnector (assignSyntax d).base (elementCount before + 1) d e.elements e'.elements := by
  have hT : ∀ l : List Token, ∀ x ∈ typedTokens ⟨l, 0⟩, Typed x := fun l x hx => typed_map hx
  obtain ⟨as, hsent⟩ := (sentence_iff (hT _)).1 (c22_sound _ h)
  obtain ⟨hbu, hav⟩ := roles_cut (u := u.map assignSyntax) (s := s.map assignSyntax) (v := assignSyntax d :: v.map assignSyntax)
    (by simp [typedTokens]) hr (by simp [hlen])
  have ho := remarks_looked (b := before) hs hav fun t ht => by
    cases ht; rcases hd with hd | hd <;> simp [hd]
  obtain ⟨hn, ⟨as1, hrun⟩, hmark⟩ := sent_cut hsent hr hp ho
  rw [hav] at hrun hmark
  obtain ⟨ph, hph, ⟨as2, hrdv⟩, hback⟩ := run_remarks hs hrun
  have hrd : MayFollowDirect (v.map assignSyntax) ∧ ∃ as, Run ph (v.map assignSyntax) as := by
    generalize hq : ph = q at hrdv
    generalize v.map assignSyntax = w at hrdv ⊢
    have neq : ∀ {b : BaseType}, (assignSyntax d).base = b → b ≠ .DCT → b ≠ .ROUTE → False := by
      intro b h h1 h2
      rcases hd with hd | hd <;> rw [hd] at h
      · exact h1 h.symm
      · exact h2 h.symm
    cases hrdv with
    | dct _ _ h => subst hq; exact direct_run hph h
    | route _ _ h => subst hq; exact route_run hph h
    | truncate _ hb | climb _ hb | cruise _ hb | stay _ hb | break_ _ hb | point _ hb | level hb | vfr hb => exact (neq hb (by decide) (by decide)).elim
    | star _ hb => rcases hb with hb | ⟨hb, _⟩ <;> exact (neq hb (by decide) (by decide)).elim
    | sid | word | resume | resumeIfr | resumeVfr => rcases hph with rfl | rfl <;> cases hq
  obtain ⟨hv, as4, hrv⟩ := hrd
  have hvs := follow_slash hv
  obtain ⟨junk, rest, hjr, hj, hfr⟩ := run_anew hph hrv fun t ht => by
    rcases hv t ht with h | h | h <;> simp [h]
  obtain ⟨as5, hrw⟩ := hback _ _ hrv
  obtain ⟨⟨as6, hsent'⟩, hr'⟩ := sent_swap hsent hr hp hn hrw (by rw [hav]; exact slashed_remarks hs hvs (direct_slash hd))
  have hts : before.map (·.1) ++ assignSyntax p :: (s.map assignSyntax ++ v.map assignSyntax) = typedTokens ⟨u ++ p :: s ++ v, 0⟩ := by
    rw [hbu]; simp [typedTokens]
  rw [hts] at hsent' hr'
  obtain ⟨e, he⟩ := (c22 (F := F) (frames := frames') ⟨u ++ p :: s ++ v, 0⟩ (by simpa using hf)).2 ((sentence_iff (hT _)).2 ⟨_, hsent'⟩)
  have m2 := c68 h hne
  have m1 := c68 he (by
    intro t ht
    simp only [List.mem_append, List.mem_cons] at ht
    rcases ht with (ht | ht | ht) | ht
    · exact hne t (by simp [ht])
    · exact hne t (by simp [ht])
    · exact hne t (by simp [ht])
    · exact hne t (by simp [ht]))
  have ha : after = notes (s.map assignSyntax) ++ (assignSyntax d, .head) :: (junk ++ rest) := by
    rw [← hmark, mark_remarks hs, mark_direct hd, hjr]
  rw [mark_remarks hs, hjr, ← List.append_assoc] at hr'
  rw [ha] at hr ho
  refine ⟨e, he, ?_⟩
  have := direct_same m1 m2 hp hd hr' hr (by cases u <;> simp [typedTokens]) notes_note hj hfr (direct_nowhere (typed_assign d) hd)
    (remarks_looked hs (v := v.map assignSyntax) (by
      have := congrArg (List.map (·.1)) hjr
      rw [mark_tokens] at this
      rw [this]; simp [notes]) (by
      intro t ht hx
      rcases hv t ht with h | h | h <;> rw [hx] at h <;> cases h)) ho
  exact direct_name this

/-- **C74** A DCT behind a point may be left out: the field 15 without it is accepted and has the same elements, but for the DCT. -/
theorem c74_leave {frames frames' : Nat} {u s v : List Token} {p d : Token} {e' : Ers F}
    (h : parseF15 frames (Ers.new : Ers F) ⟨u ++ p :: s ++ d :: v, 0⟩ = .ok (true, e')) (hne : ∀ t ∈ u ++ p :: s ++ d :: v, t.text ≠ [])
    {before after : List (Token × Role)} (hr : roles (typedTokens ⟨u ++ p :: s ++ d :: v, 0⟩) = before ++ (assignSyntax p, .head) :: after)
    (hlen : before.length = u.length) (hp : (assignSyntax p).base = .POINT) (hs : Remarks (s.map assignSyntax))
    (hd0 : d.text = py! "DCT") (hf : 4 * (u ++ p :: s ++ v).length ≤ frames') :
    ∃ e, parseF15 frames' (Ers.new : Ers F) ⟨u ++ p :: s ++ v, 0⟩ = .ok (true, e) ∧
      WithDirect (elementCount before + 1) d e.elements e'.elements := by
  have hd := direct_base hd0
  obtain ⟨e, h1, h2⟩ := leave_connector h hne hr hlen hp hs (.inl hd) hf
  rw [hd] at h2
  exact ⟨e, h1, h2⟩

/-! ### Examples -/

/-- Between two positions. -/
example : ∃ e e' : Ers Rat, ∃ a : Record Rat,
    parseF15 100 Ers.new ⟨[exTok (py! "N0450F350"), exTok (py! "46N050W")] ++ exTok (py! "47N050W") :: [exTok (py! "/"), exTok (py! "N0400F330")] ++
      [exTok (py! "48N050W")], 0⟩ = .ok (true, e) ∧
    parseF15 100 Ers.new ⟨[exTok (py! "N0450F350"), exTok (py! "46N050W")] ++ exTok (py! "47N050W") :: [exTok (py! "/"), exTok (py! "N0400F330")] ++
      exTok (py! "DCT") :: [exTok (py! "48N050W")], 0⟩ = .ok (true, e') ∧
    e.elements.length = 5 ∧ e.elements.take 3 = e'.elements.take 3 ∧ e'.elements[3]? = some a ∧ a.name = py! "DCT" ∧
    e.elements.drop 3 = e'.elements.drop 4 := by
  have hacc : ((parseF15 100 (Ers.new : Ers Rat) ⟨[exTok (py! "N0450F350"), exTok (py! "46N050W")] ++ exTok (py! "47N050W") ::
      [exTok (py! "/"), exTok (py! "N0400F330")] ++ [exTok (py! "48N050W")], 0⟩).toOption.map fun x =>
      (x.1, x.2.elements.length, x.2.elements.map (·.latLongValid))) = some (true, 5, [false, true, true, true, false]) := by decide +kernel
  cases h : parseF15 100 (Ers.new : Ers Rat) ⟨[exTok (py! "N0450F350"), exTok (py! "46N050W")] ++ exTok (py! "47N050W") ::
      [exTok (py! "/"), exTok (py! "N0400F330")] ++ [exTok (py! "48N050W")], 0⟩ with
  | error => rw [h] at hacc; simp [Except.toOption] at hacc
  | ok x =>
    obtain ⟨b, e⟩ := x
    rw [h] at hacc
    simp only [Except.toOption, Option.map_some, Option.some.injEq, Prod.mk.injEq] at hacc
    obtain ⟨rfl, hlen, hll⟩ := hacc
    obtain ⟨e', k1, k2⟩ := c74_put (frames' := 100) (d := exTok (py! "DCT"))
      (before := [(assignSyntax (exTok (py! "N0450F350")), .note), (assignSyntax (exTok (py! "46N050W")), .head)])
      (after := [(assignSyntax (exTok (py! "/")), .note), (assignSyntax (exTok (py! "N0400F330")), .note), (assignSyntax (exTok (py! "48N050W")), .head)])
      h (by decide +kernel) (by decide +kernel) (by decide +kernel) (by decide +kernel)
      (.level (by decide +kernel) (by decide +kernel) .none)
      (by intro t ht; cases ht; decide +kernel) rfl (by decide +kernel)
    have hc : elementCount [(assignSyntax (exTok (py! "N0450F350")), Role.note), (assignSyntax (exTok (py! "46N050W")), .head)] + 1 = 2 := by decide +kernel
    rw [hc] at k2
    obtain ⟨p, a, _, q2, q3, _⟩ := k2.here
    have pos : ∀ i r, e.elements[i]? = some r → i = 2 ∨ i = 3 → r.latLongValid = true := by
      intro i r h1 h2
      have : (e.elements.map (·.latLongValid))[i]? = some r.latLongValid := by rw [List.getElem?_map, h1]; rfl
      rw [hll] at this
      rcases h2 with rfl | rfl <;> simpa using this.symm
    have e2 := List.getElem?_eq_getElem (l := e.elements) (i := 2) (by omega)
    have e3 := List.getElem?_eq_getElem (l := e.elements) (i := 3) (by omega)
    exact ⟨e, e', a, rfl, k1, hlen, k2.courses _ _ e2 e3 (pos _ _ e2 (.inl rfl)) (pos _ _ e3 (.inr rfl)), q2, q3, k2.behind⟩

/-- A DCT can stand last, but not before an ATS route, a second DCT or a STAR. -/
example : check (py! "N0450F350 LNZ DCT") (fun b _ => b) = true ∧ check (py! "N0450F350 LNZ DCT UL856 PNT") (fun b _ => b) = false ∧
    check (py! "N0450F350 LNZ DCT DCT ABC") (fun b _ => b) = false ∧ check (py! "N0450F350 LNZ DCT STAR") (fun b _ => b) = false := by
  decide +kernel

/-- Behind a point without a position a DCT does change a course: the element before it no longer sees the position behind the DCT. -/
example : check (py! "N0450F350 46N050W ABC 47N050W") (fun b e => b && (e.elements.map (·.distance) == [0, 111120, 0, 0, 0])) = true ∧
    check (py! "N0450F350 46N050W ABC DCT 47N050W") (fun b e => b && (e.elements.map (·.distance) == [0, 0, 0, 0, 0, 0])) = true := by
  decide +kernel

end F15
