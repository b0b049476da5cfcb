import Verif.Props.Direct
import Verif.Spec.Remark
/-!
# C75: what is said about a point concerns the point and what follows
-/

namespace F15
open Spec

set_option linter.unusedSectionVars false
variable {F : Type} [PyFloat F]

/-- What can be read after a point or a stay can be read after a stay, if it is no remark. -/
theorem run_stayed {f : Bool} {q : Phase} (hq : q = .point f ∨ q = .stay) {v : List Token} {as : List Act} (h : Run q v as)
    (hv : ∀ t, v.head? = some t → t.base ≠ .SLASH ∧ t.base ≠ .STAY) : ∃ as, Run .stay v as := by
  have ok : ∀ {t : Token}, q.allows t = true → t.base ≠ .STAY → Phase.stay.allows t = true := by
    intro t h hr
    rcases hq with rfl | rfl <;> simp_all [Phase.allows] <;> grind
  cases h with
  | stop => exact ⟨_, .stop _⟩
  | truncate hq' hb => exact ⟨_, .truncate (ok hq' (by simp [hb])) hb⟩
  | star hq' hb => exact ⟨_, .star (ok hq' (by rcases hb with hb | ⟨hb, _⟩ <;> simp [hb])) (hb.imp_right fun h => ⟨h.1, by simp⟩)⟩
  | sid => rcases hq with h | h <;> cases h
  | dct hq' hb h => exact ⟨_, .dct (ok hq' (by simp [hb])) hb h⟩
  | route hq' hb h => exact ⟨_, .route (ok hq' (by simp [hb])) hb h⟩
  | point hq' hb hn h => exact ⟨_, .point (ok hq' (by simp [hb])) hb hn h⟩
  | climb hq' hb h => exact ⟨_, .climb (ok hq' (by simp [hb])) hb h⟩
  | cruise hq' hb h1 h2 h3 h4 h => exact ⟨_, .cruise (ok hq' (by simp [hb])) hb h1 h2 h3 h4 h⟩
  | stay hq' hb h1 h2 h => exact absurd hb (hv _ rfl).2
  | break_ hq' hb h => exact ⟨_, .break_ (ok hq' (by simp [hb])) hb h⟩
  | level hb | vfr hb => exact absurd hb (hv _ rfl).1
  | word | resume | resumeIfr | resumeVfr => rcases hq with h | h <;> cases h

/-- Other remarks can be read. -/
theorem remarks_run {s : List Token} (hs : Remarks s) (hT : ∀ t ∈ s, Typed t) (hl : ∀ t ∈ s, t.base = .SPEED_ALTITUDE → LevelOk t.text)
    {f : Bool} {q : Phase} (hq : q = .point f ∨ q = .stay) {v : List Token} {as : List Act} (h : Run q v as)
    (hv : ∀ t, v.head? = some t → t.base ≠ .SLASH ∧ t.base ≠ .STAY ∧ (t.base = .ROUTE → f = true → ∃ x ∈ s, x.base = .STAY)) :
    ∃ as, Run (.point f) (s ++ v) as := by
  induction hs with
  | none =>
    refine run_after hq h fun t ht => ⟨(hv t ht).1, fun hb => ?_⟩
    cases f with
    | false => rfl
    | true =>
      obtain ⟨x, hx, _⟩ := (hv t ht).2.2 hb rfl
      cases hx
  | @level s l rest hs hb hrem ih =>
    obtain ⟨as, h⟩ := ih (fun t ht => hT t (by simp [ht])) (fun t ht => hl t (by simp [ht])) (fun t ht => by
      refine ⟨(hv t ht).1, (hv t ht).2.1, fun h1 h2 => ?_⟩
      obtain ⟨x, hx, hxb⟩ := (hv t ht).2.2 h1 h2
      simp only [List.mem_cons] at hx
      rcases hx with rfl | rfl | hx
      · rw [hs] at hxb; cases hxb
      · rw [hb] at hxb; cases hxb
      · exact ⟨x, hx, hxb⟩)
    exact ⟨_, .level hs hb (fun _ => (levelOk_iff (hT l (by simp)) hb).1 (hl l (by simp) hb)) h⟩
  | @stay t s m ht hs hm =>
    obtain ⟨as, h⟩ := run_stayed hq h fun t ht => ⟨(hv t ht).1, (hv t ht).2.1⟩
    exact ⟨_, .stay (by simp [Phase.allows, ht]) ht hs hm h⟩

/-- The point is the same but for the remarks. -/
theorem point_remarked {b x y : List (Token × Role)} {p : Token} (hp : p.base = .POINT) {r r' : Record F}
    (h : RouteElement b (p, .head) x r) (h' : RouteElement b (p, .head) y r') (ho : ¬ Overlooked b x) (ho' : ¬ Overlooked b y) :
    unaim (withoutRemarks r) = unaim (withoutRemarks r') := by
  obtain ⟨n1, n2, n3, n4, n5⟩ := h.name
  obtain ⟨n1', n2', n3', n4', n5'⟩ := h'.name
  have hn := n3.trans n3'.symm
  have hs := n5.trans n5'.symm
  refine unaim_eq (r := withoutRemarks r) (r' := withoutRemarks r') hn (n1.trans n1'.symm) (n2.trans n2'.symm) (n4.trans n4'.symm) hs
    ⟨rfl, rfl, rfl, rfl, rfl, h.filled.noError.trans h'.filled.noError.symm⟩
    (h.rules.trans h'.rules.symm) (h.text.trans (by show _ = r'.breakText; rw [h'.text]; simp [startsText, hp])) ?_ ?_
  · obtain ⟨a, b⟩ := h.noClimb (by simp)
    obtain ⟨a', b'⟩ := h'.noClimb (by simp)
    exact ⟨a.trans a'.symm, b.trans b'.symm⟩
  · by_cases hp : isLatLong p.sub
    · obtain ⟨k1, k2⟩ := h.place hp ho
      obtain ⟨k3, k4⟩ := h'.place hp ho'
      exact ⟨k1.trans k3.symm, decoded_unique hn hs k2 k4⟩
    · obtain ⟨k1, k2, k3⟩ := h.noPlace (.inl hp)
      obtain ⟨k4, k5, k6⟩ := h'.noPlace (.inl hp)
      exact ⟨k1.trans k4.symm, by show (r.latitude, r.longitude) = (r'.latitude, r'.longitude); rw [k2, k3, k5, k6]⟩

theorem unaim_remarks (r : Record F) : unaim (withoutRemarks r) = withoutRemarks (unaim r) := rfl

theorem remarks_courses {l : List (Record F)} (hc : ∀ before r following, l = before ++ r :: following → (r.bearing, r.distance) = courseOf r following) :
    ∀ before r following, l.map withoutRemarks = before ++ r :: following → (r.bearing, r.distance) = courseOf r following := by
  intro before r following h
  obtain ⟨l1, l2, rfl, rfl, h2⟩ := List.map_eq_append_iff.1 h
  obtain ⟨r0, l3, rfl, rfl, rfl⟩ := List.map_eq_cons_iff.1 h2
  have h1 := hc l1 r0 l3 rfl
  have hall : ∀ l : List (Record F), All2 LocEq l (l.map withoutRemarks) := by
    intro l
    induction l with
    | nil => exact .nil
    | cons x l ih => exact .cons ⟨rfl, rfl, rfl⟩ ih
  rw [← courseOf_congr (r := r0) (r' := withoutRemarks r0) (n := l3) ⟨rfl, rfl, rfl⟩ ((hall l3).take 2), ← h1]
  rfl

/-- The last level among remarks. -/
theorem remarks_level {s : List Token} (hs : Remarks s) {x : List (Token × Role)} {c : Token × Role} (h : LastChange (x ++ notes s) c) :
    (∃ a t b, s = a ++ t :: b ∧ t.base = .SPEED_ALTITUDE ∧ (∀ y ∈ b, y.base ≠ .SPEED_ALTITUDE) ∧ c = (t, .note)) ∨
    ((∀ t ∈ s, t.base ≠ .SPEED_ALTITUDE) ∧ LastChange x c) := by
  have only : ∀ t ∈ s, isChange (t, .note) = true → t.base = .SPEED_ALTITUDE := by
    clear h
    induction hs with
    | none => intro t ht; cases ht
    | @level s l rest hs hl hrem ih =>
      intro t ht hc
      simp only [List.mem_cons] at ht
      rcases ht with rfl | rfl | ht
      · simp [isChange, hs] at hc
      · exact hl
      · exact ih t ht hc
    | @stay t s m ht hs hm =>
      intro x hx hc
      simp only [List.mem_cons, List.not_mem_nil, or_false] at hx
      rcases hx with rfl | rfl | rfl
      · simp [isChange, ht] at hc
      · simp [isChange, hs] at hc
      · simp [isChange, hm] at hc
  have isc : ∀ t : Token, t.base = .SPEED_ALTITUDE → isChange (t, .note) = true := fun t ht => by simp [isChange, ht]
  rcases last_change_append h with ⟨a, b, he, hc, hb⟩ | ⟨h0, h1⟩
  · left
    obtain ⟨a', b', rfl, rfl, h2⟩ := List.map_eq_append_iff.1 he
    obtain ⟨t, b'', rfl, rfl, rfl⟩ := List.map_eq_cons_iff.1 h2
    refine ⟨a', t, b'', rfl, only t (by simp) hc, fun y hy hyb => ?_, rfl⟩
    have := hb (y, .note) (List.mem_map.2 ⟨y, hy, rfl⟩)
    rw [isc y hyb] at this; cases this
  · refine .inr ⟨fun t ht hb => ?_, h1⟩
    have := h0 (t, .note) (List.mem_map.2 ⟨t, ht, rfl⟩)
    rw [isc t hb] at this; cases this

theorem remarks_stay {s : List Token} {n : Int} (h : StayOf (notes s) n) : StayIn s n := by
  rcases h with ⟨h0, h⟩ | ⟨a, t, b, he, hb, hm, _⟩
  · exact .inl ⟨h0, fun t ht hb => h (t, .note) (List.mem_map.2 ⟨t, ht, rfl⟩) ⟨rfl, hb⟩⟩
  · right
    have : (t, Role.note) ∈ notes s := by rw [he]; simp
    obtain ⟨x, hx, hxe⟩ := List.mem_map.1 this
    cases hxe
    exact ⟨t, hx, hb, hm⟩

theorem upTo_front (a b c : List (Token × Role)) : upTo (a ++ b) c = a ++ upTo b c := by
  unfold upTo
  simp only [List.append_assoc]

/-- The elements of the two fields 15. -/
theorem remark_same {ts ts' : List Token} {l l' : List (Record F)} (m1 : Meaning ts l) (m2 : Meaning ts' l')
    {before junk rest : List (Token × Role)} {p : Token} {s s' : List Token} (hp : p.base = .POINT)
    (hr : roles ts = before ++ (p, .head) :: (notes s ++ junk ++ rest)) (hr' : roles ts' = before ++ (p, .head) :: (notes s' ++ junk ++ rest))
    (ht : ts.head?.map (·.base) = ts'.head?.map (·.base)) (hs' : Remarks s') (hj : Idle junk) (hfr : Fresh rest)
    (ho : ¬ Overlooked before (notes s ++ junk ++ rest)) (ho' : ¬ Overlooked before (notes s' ++ junk ++ rest))
    {d : Record F} (hd1 : l'[elementCount before]? = some d) {c : Token × Role} (hd2 : LastChange before c) (hd3 : Gives c.1 d.speed d.altitude) :
    Remarked (elementCount before + 1) s' l l' := by
  have hjn : ∀ x ∈ junk, x.2 = .note := fun x hx => (hj x hx).1
  have hall : ∀ s : List Token, ∀ x ∈ notes s ++ junk, x.2 = .note := by
    intro s x hx
    rcases List.mem_append.1 hx with hx | hx
    · exact notes_note x hx
    · exact hjn x hx
  have hbeg := same_beginning m1 m2 hp hr hr' ht
  obtain ⟨r, g1, g2⟩ := m1.route before _ _ hr rfl
  obtain ⟨r', g1', g2'⟩ := m2.route before _ _ hr' rfl
  have hpt := point_remarked hp g2 g2' ho ho'
  have hra : ∀ (s : List Token) {ts : List Token}, roles ts = before ++ (p, .head) :: (notes s ++ junk ++ rest) →
      roles ts = (before ++ (p, .head) :: (notes s ++ junk)) ++ rest := by
    intro s ts h; rw [h]; simp
  have cnt : ∀ s : List Token, elementCount (before ++ (p, .head) :: (notes s ++ junk)) = elementCount before + 1 := by
    intro s
    rw [count_mid, show (p, Role.head) :: (notes s ++ junk) = [(p, Role.head)] ++ (notes s ++ junk) by rfl, count_mid, count_note (hall s)]; rfl
  have looked : ∀ mid m aft, rest = mid ++ m :: aft → (Overlooked ((before ++ (p, .head) :: (notes s ++ junk)) ++ mid) aft ↔
      Overlooked ((before ++ (p, .head) :: (notes s' ++ junk)) ++ mid) aft) := by
    intro mid m aft he
    cases mid with
    | cons => exact over_mid (by simp)
    | nil =>
      rw [List.append_nil, List.append_nil]
      have o : ∀ s : List Token, ¬ Overlooked (before ++ (p, .head) :: (notes s ++ junk)) aft := fun s => not_over (by simp) (hall s)
      exact ⟨fun h => absurd h (o _), fun h => absurd h (o _)⟩
  have hrest : rest = [] ∨ 0 < elementCount rest := by
    rcases hfr with h | ⟨m, r, h, hm, _⟩
    · exact .inl h
    · right; rw [h]; simp [elementCount, hm]
  have hend := (same_tail m1 m2 (hra s hr) (hra s' hr') (by rw [cnt]; exact g1) (by rw [cnt]; exact g1')
    (by rw [g2.rules, g2'.rules]) hrest looked).1
  rw [cnt, cnt] at hend
  -- nothing but the remarks
  have hlen : l.length = l'.length := by rw [m1.count, m2.count, hra s hr, hra s' hr', count_mid _ rest, count_mid _ rest, cnt, cnt]
  have hn1 : elementCount before + 1 < l.length := (List.getElem?_eq_some_iff.1 g1).1
  have hcalm : ∀ i : Nat, (l[i]?).map (fun r => unaim (withoutRemarks r)) = (l'[i]?).map (fun r => unaim (withoutRemarks r)) := by
    intro i
    by_cases h1 : i < elementCount before + 1
    · have e1 := List.getElem?_eq_getElem (l := l) (i := i) (by omega)
      have e2 := List.getElem?_eq_getElem (l := l') (i := i) (by omega)
      have hsame := hbeg.2 i _ _ (by rw [List.getElem?_take_of_lt h1]; exact e1) (by rw [List.getElem?_take_of_lt h1]; exact e2)
      rw [e1, e2]
      show some _ = some _
      rw [show l'[i] = _ from hsame]; rfl
    · by_cases h2 : i = elementCount before + 1
      · rw [h2, g1, g1']; exact congrArg some hpt
      · have hi : i = elementCount before + 1 + 1 + (i - (elementCount before + 2)) := by omega
        have := congrArg (fun l => l[i - (elementCount before + 2)]?) (show _ = _ from hend)
        simp only [List.getElem?_map, List.getElem?_drop] at this
        rw [← hi] at this
        have := congrArg (Option.map fun r => unaim { r with stayTime := 0 }) this
        rw [Option.map_map, Option.map_map] at this
        exact this
  have hsame : l.map withoutRemarks = l'.map withoutRemarks := by
    refine aim_unique ?_ (remarks_courses m1.course) (remarks_courses m2.course)
    refine List.ext_getElem? fun i => ?_
    simpa [List.getElem?_map, Option.map_map, Function.comp_def] using hcalm i
  have hget : ∀ (i : Nat) x x', l[i]? = some x → l'[i]? = some x' → withoutRemarks x = withoutRemarks x' := by
    intro i x x' h1 h2
    have := congrArg (fun l => l[i]?) hsame
    simp only [List.getElem?_map, h1, h2, Option.map_some, Option.some.injEq] at this
    exact this
  refine ⟨hsame, ?_, d, r, r', hd1, g1, g1', ?_, ?_, ?_⟩
  · apply List.ext_getElem?
    intro i
    by_cases hi : i < elementCount before + 1
    · have e1 := List.getElem?_eq_getElem (l := l) (i := i) (by omega)
      have e2 := List.getElem?_eq_getElem (l := l') (i := i) (by omega)
      have hsb := hbeg.2 i _ _ (by rw [List.getElem?_take_of_lt hi]; exact e1) (by rw [List.getElem?_take_of_lt hi]; exact e2)
      rw [List.getElem?_take_of_lt hi, List.getElem?_take_of_lt hi, e1, e2]
      refine congrArg some (same_course hsb ?_)
      have := hget i _ _ e1 e2
      have h3 := congrArg (fun r : Record F => (r.bearing, r.distance)) this
      exact h3
    · rw [List.getElem?_eq_none (by simp; omega), List.getElem?_eq_none (by simp; omega)]
  · have := g2'.filled.stay
    rw [about_noted (hall s') hfr] at this
    exact remarks_stay (stay_idle hj this)
  · obtain ⟨c', k1, k2⟩ := g2'.filled.change
    rw [upTo_noted (hall s') hfr, ← List.append_assoc, change_idle hj] at k1
    rcases remarks_level hs' k1 with ⟨a, t, b, k3, k4, k5, rfl⟩ | ⟨k3, k4⟩
    · exact .inl ⟨a, t, b, k3, k4, k5, k2⟩
    · refine .inr ⟨k3, ?_⟩
      have k5 : LastChange before c' := by
        rcases last_change_append k4 with ⟨x, y, hh, hch, _⟩ | ⟨_, h⟩
        · cases x with
          | nil => cases hh; simp [isChange, hp] at hch
          | cons _ x => cases x <;> cases hh
        · exact h
      rw [last_change_unique k5 hd2] at k2
      exact gives_unique k2 hd3
  · intro i x x' hi h1 h2
    have hw : withoutSpeed x = withoutSpeed x' := by
      have := congrArg (fun l => l[i - (elementCount before + 2)]?) (show _ = _ from hend)
      simp only [List.getElem?_map, List.getElem?_drop] at this
      rw [show elementCount before + 1 + 1 + (i - (elementCount before + 2)) = i by omega, h1, h2] at this
      simpa using this
    have hst : x.stayTime = x'.stayTime := by
      have h3 := congrArg (fun r : Record F => r.stayTime) hw
      exact h3
    by_cases hj2 : i - (elementCount before + 2) < elementCount rest
    · obtain ⟨mid, m, aft, he, hm, hcm⟩ := split_at rest _ hj2
      obtain ⟨y, y1, y2⟩ := m1.route ((before ++ (p, .head) :: (notes s ++ junk)) ++ mid) m aft (by rw [hra s hr, he]; simp) hm
      obtain ⟨y', y1', y2'⟩ := m2.route ((before ++ (p, .head) :: (notes s' ++ junk)) ++ mid) m aft (by rw [hra s' hr', he]; simp) hm
      rw [count_mid, cnt, hcm, show elementCount before + 1 + (i - (elementCount before + 2)) + 1 = i by omega] at y1 y1'
      rw [h1] at y1; rw [h2] at y1'
      cases y1; cases y1'
      have f1 := y2.filled
      have f2 := y2'.filled
      obtain ⟨c1, a1, b1⟩ := f1.change
      obtain ⟨c2, a2, b2⟩ := f2.change
      have full : x.speed = x'.speed ∧ x.altitude = x'.altitude → x = x' := by
        intro ⟨e1, e2⟩
        have k3 : x.altitudeSi = x'.altitudeSi := by rw [f1.si.1, f2.si.1, e2]
        have k4 : x.speedSi = x'.speedSi := by rw [f1.si.2, f2.si.2, e1, k3]
        cases x; cases x'
        simp only [withoutSpeed, Record.mk.injEq] at *
        simp_all
      have own : ∀ (s : List Token) {r : Record F} {c : Token × Role} {sp al : Str}, RouteElement before (p, .head) (notes s ++ junk ++ rest) r →
          LastChange (before ++ (p, .head) :: (notes s ++ junk)) c → Gives c.1 sp al → sp = r.speed ∧ al = r.altitude := by
        intro s r c sp al hre hlc hg
        obtain ⟨c', k1, k2⟩ := hre.filled.change
        rw [upTo_noted (hall s) hfr] at k1
        rw [last_change_unique hlc (by simpa using k1)] at hg
        exact gives_unique hg k2
      have a1' : LastChange ((before ++ (p, .head) :: (notes s ++ junk)) ++ upTo (mid ++ [m]) aft) c1 := by
        rw [← upTo_front]; simpa using a1
      have a2' : LastChange ((before ++ (p, .head) :: (notes s' ++ junk)) ++ upTo (mid ++ [m]) aft) c2 := by
        rw [← upTo_front]; simpa using a2
      rcases last_change_append a1' with k | ⟨k0, k⟩ <;> rcases last_change_append a2' with k' | ⟨k0', k'⟩
      · rw [last_change_unique k k'] at b1
        exact .inl (full (gives_unique b1 b2))
      · obtain ⟨x, y, hxy, hx, _⟩ := k
        rw [k0' c1 (by rw [hxy]; simp)] at hx; cases hx
      · obtain ⟨x, y, hxy, hx, _⟩ := k'
        rw [k0 c2 (by rw [hxy]; simp)] at hx; cases hx
      · obtain ⟨e1, e2⟩ := own s g2 k b1
        obtain ⟨e3, e4⟩ := own s' g2' k' b2
        exact .inr ⟨hst, e1, e2, e3, e4⟩
    · left
      have hil : i < l.length := (List.getElem?_eq_some_iff.1 h1).1
      have c1 := m1.count
      have c2 := m2.count
      rw [hra s hr, count_mid, cnt] at c1
      have hi' : i = elementCount before + 1 + elementCount rest + 1 := by omega
      obtain ⟨q, k1, k2⟩ := m1.arrival
      obtain ⟨q', k1', k2'⟩ := m2.arrival
      rw [hra s hr, count_mid, cnt, ← hi', h1] at k2
      rw [hra s' hr', count_mid, cnt, ← hi', h2] at k2'
      cases k2; cases k2'
      have : q.rules = q'.rules := by
        have h3 := congrArg (fun r : Record F => r.rules) hw
        exact h3
      rw [this]

/-- **C75** What is said about a point of an accepted route (changes of speed and level, a stay) may be changed, added or taken away. Behind
a point `p` that is looked at stand the remarks `s`; with any other remarks `s'` (valid levels) the field 15 is accepted as well. Nothing
differs in the elements before the point; the point has the stay, speed and level given in `s'` (the speed and level of the element before,
if `s'` gives none); of the elements behind nothing can differ but speed and level, and only as long as they are those of the point.
Two limits: the SPEED/LEVEL demanded by `IFR` cannot be taken away, nor a stay between a point given by coordinates and an ATS route. -/
theorem c75 {frames frames' : Nat} {u s s' v : List Token} {p : Token} {e : Ers F}
    (h : parseF15 frames (Ers.new : Ers F) ⟨u ++ p :: s ++ v, 0⟩ = .ok (true, e)) (hne : ∀ t ∈ u ++ p :: (s ++ s') ++ v, t.text ≠ [])
    {before after : List (Token × Role)} (hr : roles (typedTokens ⟨u ++ p :: s ++ v, 0⟩) = before ++ (assignSyntax p, .head) :: after)
    (hlen : before.length = u.length) (hp : (assignSyntax p).base = .POINT) (hs : Remarks (s.map assignSyntax))
    (hs' : Remarks (s'.map assignSyntax)) (hl : ∀ t ∈ s', (assignSyntax t).base = .SPEED_ALTITUDE → LevelOk t.text)
    (hifr : ∀ t, u.getLast? = some t → (assignSyntax t).sub = .IFR → ∃ x, s'.head? = some x ∧ (assignSyntax x).base = .SLASH)
    (hv : ∀ t, v.head? = some t → (assignSyntax t).base ≠ .SLASH ∧ (assignSyntax t).base ≠ .STAY ∧
      ((assignSyntax t).base = .ROUTE → isFixed (assignSyntax p) = true → ∃ x ∈ s', (assignSyntax x).base = .STAY))
    (hf : 4 * (u ++ p :: s' ++ v).length ≤ frames') :
    ∃ e', parseF15 frames' (Ers.new : Ers F) ⟨u ++ p :: s' ++ v, 0⟩ = .ok (true, e') ∧
      Remarked (elementCount before + 1) (s'.map assignSyntax) e.elements e'.elements := by
  have hT : ∀ l : List Token, ∀ x ∈ typedTokens ⟨l, 0⟩, Typed x := fun l x hx => typed_map hx
  have hTa : ∀ l : List Token, ∀ x ∈ l.map assignSyntax, Typed x := by
    intro l x hx
    obtain ⟨t, _, rfl⟩ := List.mem_map.1 hx
    exact typed_assign t
  obtain ⟨as, hsent⟩ := (sentence_iff (hT _)).1 (c22_sound _ h)
  obtain ⟨hbu, hav⟩ := roles_cut (u := u.map assignSyntax) (s := s.map assignSyntax) (v := v.map assignSyntax) (by simp [typedTokens]) hr (by simp [hlen])
  have hv' : ∀ t, (v.map assignSyntax).head? = some t → t.base ≠ .SLASH ∧ t.base ≠ .STAY ∧
      (t.base = .ROUTE → isFixed (assignSyntax p) = true → ∃ x ∈ s'.map assignSyntax, x.base = .STAY) := by
    intro t ht
    rw [List.head?_map] at ht
    obtain ⟨x, hx, rfl⟩ := Option.map_eq_some_iff.1 ht
    refine ⟨(hv x hx).1, (hv x hx).2.1, fun h1 h2 => ?_⟩
    obtain ⟨y, hy, hyb⟩ := (hv x hx).2.2 h1 h2
    exact ⟨_, List.mem_map.2 ⟨y, hy, rfl⟩, hyb⟩
  have ho := remarks_looked (b := before) hs hav fun t ht => (hv' t ht).1
  obtain ⟨hn, ⟨as1, hrun⟩, hmark⟩ := sent_cut hsent hr hp ho
  rw [hav] at hrun hmark
  obtain ⟨ph, hph, ⟨as2, hrv⟩, _⟩ := run_remarks hs hrun
  obtain ⟨junk, rest, hjr, hj, hfr⟩ := run_anew hph hrv fun t ht => ⟨(hv' t ht).1, (hv' t ht).2.1⟩
  obtain ⟨as3, hrw⟩ := remarks_run hs' (hTa _) (by
    intro t ht hb
    obtain ⟨x, hx, rfl⟩ := List.mem_map.1 ht
    rw [assign_text]; exact hl x hx hb) hph hrv hv'
  obtain ⟨⟨as4, hsent'⟩, hr'⟩ := sent_swap_free hsent hr hp hn hrw (by
    intro x hx hxi _
    have : (before.map (·.1)).getLast? = some x.1 := by rw [List.getLast?_map, hx]; rfl
    rw [hbu, List.getLast?_map] at this
    obtain ⟨t, ht, hte⟩ := Option.map_eq_some_iff.1 this
    obtain ⟨y, hy, hyb⟩ := hifr t ht (by rw [hte]; exact hxi)
    cases s' with
    | nil => cases hy
    | cons z s' => cases hy; exact ⟨_, _, rfl, hyb⟩)
  have hts : before.map (·.1) ++ assignSyntax p :: (s'.map assignSyntax ++ v.map assignSyntax) = typedTokens ⟨u ++ p :: s' ++ v, 0⟩ := by
    rw [hbu]; simp [typedTokens]
  rw [hts] at hsent' hr'
  obtain ⟨e', he'⟩ := (c22 (F := F) (frames := frames') ⟨u ++ p :: s' ++ v, 0⟩ (by simpa using hf)).2 ((sentence_iff (hT _)).2 ⟨_, hsent'⟩)
  have m1 := c68 h (fun t ht => hne t (by simp only [List.mem_append, List.mem_cons] at ht ⊢; grind))
  have m2 := c68 he' (fun t ht => hne t (by simp only [List.mem_append, List.mem_cons] at ht ⊢; grind))
  have ha : after = notes (s.map assignSyntax) ++ junk ++ rest := by rw [← hmark, mark_remarks hs, hjr, List.append_assoc]
  rw [mark_remarks hs', hjr, ← List.append_assoc] at hr'
  rw [ha] at hr ho
  obtain ⟨d, c, d1, d2, d3⟩ := c26 he' hr'
  rw [upTo_point hp] at d2
  have hj' : (junk ++ rest).map (·.1) = v.map assignSyntax := by rw [← hjr, mark_tokens]
  exact ⟨e', he', remark_same m1 m2 hp hr hr' (by cases u <;> simp [typedTokens]) hs' hj hfr ho
    (remarks_looked hs' (v := v.map assignSyntax) (by rw [List.append_assoc, List.map_append, hj']; simp [notes]) fun t ht => (hv' t ht).1) d1 d2 d3⟩

/-! ### Examples -/

/-- A stay and a new level at `ABC`: `DEF` flies at the new level, `GHI` and what follows has a level of its own. -/
example : ∃ e e' : Ers Rat,
    parseF15 100 Ers.new ⟨[exTok (py! "N0450F350")] ++ exTok (py! "ABC") :: [] ++
      [exTok (py! "DEF"), exTok (py! "GHI"), exTok (py! "/"), exTok (py! "N0400F330"), exTok (py! "JKL")], 0⟩ = .ok (true, e) ∧
    parseF15 100 Ers.new ⟨[exTok (py! "N0450F350")] ++ exTok (py! "ABC") ::
      [exTok (py! "/"), exTok (py! "N0420F310"), exTok (py! "STAY1"), exTok (py! "/"), exTok (py! "0130")] ++
      [exTok (py! "DEF"), exTok (py! "GHI"), exTok (py! "/"), exTok (py! "N0400F330"), exTok (py! "JKL")], 0⟩ = .ok (true, e') ∧
    e.elements.map withoutRemarks = e'.elements.map withoutRemarks ∧ e.elements.take 1 = e'.elements.take 1 ∧
    e.elements.map (fun r => (r.altitude, r.stayTime)) =
      [(py! "F350", 0), (py! "F350", 0), (py! "F350", 0), (py! "F330", 0), (py! "F330", 0), ([], 0)] ∧
    e'.elements.map (fun r => (r.altitude, r.stayTime)) =
      [(py! "F350", 0), (py! "F310", 90), (py! "F310", 0), (py! "F330", 0), (py! "F330", 0), ([], 0)] := by
  have hacc : ((parseF15 100 (Ers.new : Ers Rat) ⟨[exTok (py! "N0450F350")] ++ exTok (py! "ABC") :: [] ++
      [exTok (py! "DEF"), exTok (py! "GHI"), exTok (py! "/"), exTok (py! "N0400F330"), exTok (py! "JKL")], 0⟩).toOption.map fun x =>
      (x.1, x.2.elements.map (fun r => (r.altitude, r.stayTime)))) = some (true,
      [(py! "F350", 0), (py! "F350", 0), (py! "F350", 0), (py! "F330", 0), (py! "F330", 0), ([], 0)]) := by decide +kernel
  have hacc' : ((parseF15 100 (Ers.new : Ers Rat) ⟨[exTok (py! "N0450F350")] ++ exTok (py! "ABC") ::
      [exTok (py! "/"), exTok (py! "N0420F310"), exTok (py! "STAY1"), exTok (py! "/"), exTok (py! "0130")] ++
      [exTok (py! "DEF"), exTok (py! "GHI"), exTok (py! "/"), exTok (py! "N0400F330"), exTok (py! "JKL")], 0⟩).toOption.map fun x =>
      (x.1, x.2.elements.map (fun r => (r.altitude, r.stayTime)))) = some (true,
      [(py! "F350", 0), (py! "F310", 90), (py! "F310", 0), (py! "F330", 0), (py! "F330", 0), ([], 0)]) := by decide +kernel
  cases h : parseF15 100 (Ers.new : Ers Rat) ⟨[exTok (py! "N0450F350")] ++ exTok (py! "ABC") :: [] ++
      [exTok (py! "DEF"), exTok (py! "GHI"), exTok (py! "/"), exTok (py! "N0400F330"), exTok (py! "JKL")], 0⟩ with
  | error => rw [h] at hacc; simp [Except.toOption] at hacc
  | ok x =>
    obtain ⟨b, e⟩ := x
    rw [h] at hacc
    simp only [Except.toOption, Option.map_some, Option.some.injEq, Prod.mk.injEq] at hacc
    obtain ⟨rfl, hal⟩ := hacc
    obtain ⟨e', k1, k2⟩ := c75 (frames' := 100)
      (s' := [exTok (py! "/"), exTok (py! "N0420F310"), exTok (py! "STAY1"), exTok (py! "/"), exTok (py! "0130")])
      (before := [(assignSyntax (exTok (py! "N0450F350")), .note)])
      (after := [(assignSyntax (exTok (py! "DEF")), .head), (assignSyntax (exTok (py! "GHI")), .head), (assignSyntax (exTok (py! "/")), .note),
        (assignSyntax (exTok (py! "N0400F330")), .note), (assignSyntax (exTok (py! "JKL")), .head)])
      h (by decide +kernel) (by decide +kernel) (by decide +kernel) (by decide +kernel) .none
      (.level (by decide +kernel) (by decide +kernel) (.stay (by decide +kernel) (by decide +kernel) (by decide +kernel)))
      (by
        have : ([exTok (py! "/"), exTok (py! "N0420F310"), exTok (py! "STAY1"), exTok (py! "/"), exTok (py! "0130")].all fun t =>
          decide ((assignSyntax t).base ≠ .SPEED_ALTITUDE) || decide (t.text = py! "N0420F310")) = true := by decide +kernel
        intro t ht hb
        have := List.all_eq_true.1 this t ht
        simp only [hb, ne_eq, not_true_eq_false, decide_false, Bool.false_or, decide_eq_true_eq] at this
        rw [this]
        exact (levelOk_iff (typed_assign (exTok (py! "N0420F310"))) (by decide +kernel)).2 (by decide +kernel))
      (by intro t ht; cases ht; intro h; revert h; decide +kernel)
      (by intro t ht; cases ht; decide +kernel) (by decide +kernel)
    rw [k1] at hacc'
    simp only [Except.toOption, Option.map_some, Option.some.injEq, Prod.mk.injEq, true_and] at hacc'
    exact ⟨e, e', rfl, k1, k2.same, k2.before, hal, hacc'⟩

/-- The limits are needed: `IFR` demands a SPEED/LEVEL, and no ATS route may follow a point given by coordinates directly. -/
example : check (py! "N0250VFR IFR ABC/N0400F330 DEF") (fun b _ => b) = true ∧ check (py! "N0250VFR IFR ABC DEF") (fun b e => b && (e.elements.length == 3)) = true ∧
    check (py! "N0450F350 46N050W STAY1/0100 UL9 ABC") (fun b _ => b) = true ∧ check (py! "N0450F350 46N050W UL9 ABC") (fun b _ => b) = false := by
  decide +kernel

end F15
