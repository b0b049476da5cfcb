import Verif.Lemmas.Insert
import Verif.Props.Splice
import Verif.Spec.Example
/-!
# C72: the flight rules can be changed at any point of the route
-/

namespace F15
open Spec

set_option linter.unusedSectionVars false
variable {F : Type} [PyFloat F]

theorem change_idle {x junk : List (Token × Role)} (hj : Idle junk) {c : Token × Role} : LastChange (x ++ junk) c ↔ LastChange x c := by
  constructor
  · intro h
    rcases last_change_append h with ⟨a, b, rfl, hc, _⟩ | ⟨_, h⟩
    · rw [(hj c (by simp)).2.1] at hc; cases hc
    · exact h
  · rintro ⟨a, b, rfl, hc, hb⟩
    refine ⟨a, b ++ junk, by simp, hc, fun y hy => ?_⟩
    rcases List.mem_append.1 hy with hy | hy
    · exact hb y hy
    · exact (hj y hy).2.1

theorem stay_idle {x junk : List (Token × Role)} (hj : Idle junk) {n : Int} (h : StayOf (x ++ junk) n) : StayOf x n := by
  rcases h with ⟨h0, h⟩ | ⟨a, t, b, he, hb, hm, hl⟩
  · exact .inl ⟨h0, fun y hy => h y (by simp [hy])⟩
  · right
    rcases List.append_eq_append_iff.1 he with ⟨w, h1, h2⟩ | ⟨w, h1, h2⟩
    · exact absurd hb (hj (t, .note) (by simp [h2])).2.2
    · cases w with
      | nil => exact absurd hb (hj (t, .note) (by simp at h2; simp [← h2])).2.2
      | cons y w =>
        simp only [List.cons_append, List.cons.injEq] at h2
        obtain ⟨rfl, rfl⟩ := h2
        exact ⟨a, t, w, h1, hb, hm, fun y hy => hl y (by simp [hy])⟩

theorem filled_idle {x o junk : List (Token × Role)} (hj : Idle junk) {r : Record F} (h : Filled (x ++ junk) (o ++ junk) r) : Filled x o r := by
  obtain ⟨c, h1, h2⟩ := h.change
  exact ⟨⟨c, (change_idle hj).1 h1, h2⟩, h.si, stay_idle hj h.stay, h.noError⟩

theorem about_noted {n rest : List (Token × Role)} (hn : ∀ x ∈ n, x.2 = .note) (hr : Fresh rest) : about (n ++ rest) = n := by
  unfold about
  induction n with
  | nil =>
    rcases hr with rfl | ⟨m, r, rfl, hm, _⟩
    · rfl
    · simp [hm]
  | cons x n ih =>
    have h : x.2.isElement = false := by rw [hn x (by simp)]; rfl
    simp only [List.cons_append, List.takeWhile_cons, h]
    simpa using ih fun y hy => hn y (by simp [hy])

theorem upTo_noted {b n rest : List (Token × Role)} (hn : ∀ x ∈ n, x.2 = .note) (hr : Fresh rest) : upTo b (n ++ rest) = b ++ n := by
  unfold upTo
  rw [about_noted hn hr]
  have : (n ++ rest).dropWhile (!·.2.isElement) = rest := by
    induction n with
    | nil =>
      rcases hr with rfl | ⟨m, r, rfl, hm, _⟩
      · rfl
      · simp [hm]
    | cons x n ih =>
      have h : x.2.isElement = false := by rw [hn x (by simp)]; rfl
      simp only [List.cons_append, List.dropWhile_cons, h]
      simpa using ih fun y hy => hn y (by simp [hy])
  rw [this]
  rcases hr with rfl | ⟨m, r, rfl, hm, hv⟩
  · simp
  · simp [hv]

/-- A point about which the same is said is the same element. -/
theorem point_same {b n junk rest rest' : List (Token × Role)} {p : Token} (hp : p.base = .POINT) {r r' : Record F}
    (hn : ∀ x ∈ n, x.2 = .note) (hj : Idle junk) (hr : Fresh rest) (hr' : Fresh rest')
    (h : RouteElement b (p, .head) (n ++ junk ++ rest) r) (h' : RouteElement b (p, .head) (n ++ rest') r')
    (ho : ¬ Overlooked b (n ++ junk ++ rest)) (ho' : ¬ Overlooked b (n ++ rest')) : unaim r = unaim r' := by
  have hnj : ∀ x ∈ n ++ junk, x.2 = .note := by
    intro x hx
    rcases List.mem_append.1 hx with hx | hx
    · exact hn x hx
    · exact (hj x hx).1
  have f := h.filled
  rw [upTo_noted hnj hr, about_noted hnj hr, ← List.append_assoc] at f
  have f := filled_idle hj f
  have h2 : RouteElement b (p, .head) (n ++ rest') r :=
    { name := h.name, filled := by rw [upTo_noted hn hr', about_noted hn hr']; exact f, rules := h.rules
      text := by rw [h.text]; simp [startsText, hp]
      climb := by intro h; cases h
      noClimb := h.noClimb
      place := fun a _ => h.place a ho
      noPlace := fun a => h.noPlace (a.imp_right fun h => absurd h ho') }
  have hf := filled_unique h2.filled h'.filled
  exact unaim_of_calm (element_calm h2 h' rfl (fun _ _ h => h) Iff.rfl) h2.filled h'.filled ⟨hf.1, hf.2.1⟩

theorem same_unaim {r r' : Record F} (h : unaim r = unaim r') : SameButCourse r r' := by
  show r' = { r with bearing := r'.bearing, distance := r'.distance }
  cases r; cases r'
  simp only [unaim, Record.mk.injEq] at h ⊢
  simp_all

theorem close_short {t : Token} {r : Str} (ht : Typed t) (h : closes t r) : t.base ≠ .TOO_LONG := by
  intro hb
  have hs : t.sub = .UNKNOWN := by
    rcases typed_pair ht with h | h | ⟨x, hx, h1, h2⟩
    · exact h.2
    · exact h.2
    · have := List.all_eq_true.1 table_no_unknown x hx
      rw [← h1, hb] at this
      simp at this
  rcases h with h | h | h <;> rw [hs] at h <;> cases h.1

theorem notes_note {l : List Token} : ∀ x ∈ notes l, x.2 = .note := by
  intro x hx
  obtain ⟨t, _, rfl⟩ := List.mem_map.1 hx
  rfl

/-- A point with remarks is looked at. -/
theorem remarks_looked {b after : List (Token × Role)} {s v : List Token} (hs : Remarks s) (ha : after.map (·.1) = s ++ v)
    (hv : ∀ t, v.head? = some t → t.base ≠ .SLASH) : ¬ Overlooked b after := by
  rintro ⟨_, x, y, z, rfl, h1, h2⟩
  cases hs with
  | none => exact hv x.1 (by rw [List.nil_append] at ha; rw [← ha]; rfl) h1
  | level hs hl h =>
    simp only [List.map_cons, List.cons_append, List.cons.injEq] at ha
    rw [ha.2.1, hl] at h2; cases h2
  | stay ht hs hm =>
    simp only [List.map_cons, List.cons_append, List.cons.injEq] at ha
    rw [ha.1, ht] at h1; cases h1

theorem slashed_remarks {s v w : List Token} (hs : Remarks s) (hv : ¬ Slashed v) (hw : ¬ Slashed w) : Slashed (s ++ v) ↔ Slashed (s ++ w) := by
  cases hs with
  | none => simp [hv, hw]
  | level hs hl h => exact ⟨fun _ => ⟨_, _, rfl, hs⟩, fun _ => ⟨_, _, rfl, hs⟩⟩
  | stay ht hs hm =>
    constructor <;>
    · rintro ⟨x, r, he, hx⟩
      cases he
      rw [ht] at hx; cases hx

theorem fresh_cons {m : Token × Role} {r : List (Token × Role)} (h1 : m.2.isElement = true) (h2 : m.1.base ≠ .SPEED_VFR) : Fresh (m :: r) :=
  .inr ⟨m, r, rfl, h1, fun h => h2 h.1⟩

theorem count_note {l : List (Token × Role)} (h : ∀ x ∈ l, x.2 = .note) : elementCount l = 0 := by
  unfold elementCount
  rw [List.length_eq_zero_iff, List.filter_eq_nil_iff]
  intro x hx
  simp [h x hx, Role.isElement]

theorem count_text (l : List Token) : elementCount (textOf l) = 0 := by
  unfold elementCount
  rw [List.length_eq_zero_iff, List.filter_eq_nil_iff]
  intro x hx
  obtain ⟨t, _, rfl⟩ := List.mem_map.1 hx
  simp [Role.isElement]

theorem joined_text (l : List Token) (t : Token) : joined (textOf (l.map assignSyntax) ++ [(assignSyntax t, .word)]) = spaced (l ++ [t]) := by
  unfold joined spaced textOf
  simp [List.map_map, Function.comp_def, assign_text]

theorem about_words {l : List Token} {t : Token} {m : Token × Role} {rest : List (Token × Role)} (hm : m.2.isElement = true) :
    about (textOf l ++ (t, .word) :: m :: rest) = textOf l ++ [(t, .word)] := by
  unfold about textOf
  have hw : (Role.word).isElement = false := rfl
  induction l with
  | nil => simp [hw, hm]
  | cons x l ih => simpa [hw] using ih

/-- Only a point directly behind a word can be overlooked. -/
theorem not_over {b n aft : List (Token × Role)} {m : Token × Role} (hm : m.2 ≠ .word) (hn : ∀ x ∈ n, x.2 = .note) :
    ¬ Overlooked (b ++ m :: n) aft := by
  rintro ⟨⟨b', w, he, _⟩, _⟩
  have h := congrArg List.getLast? he
  rw [List.getLast?_append, List.getLast?_append] at h
  simp only [List.getLast?_singleton, Option.some_or] at h
  cases hl : (m :: n).getLast? with
  | none => simp at hl
  | some y =>
    rw [hl] at h
    simp only [Option.some_or, Option.some.injEq] at h
    rcases List.mem_cons.1 (List.mem_of_getLast? hl) with rfl | hy
    · rw [h] at hm; exact hm rfl
    · have := hn y hy
      rw [h] at this; cases this

/-- The same end, after a point. -/
theorem same_tail {ts ts' : List Token} {l l' : List (Record F)} (h : Meaning ts l) (h' : Meaning ts' l')
    {a a' z : List (Token × Role)} (hr : roles ts = a ++ z) (hr' : roles ts' = a' ++ z)
    {r r' : Record F} (hl : l[elementCount a]? = some r) (hl' : l'[elementCount a']? = some r') (hru : r.rules = r'.rules)
    (hz : z = [] ∨ 0 < elementCount z)
    (ho : ∀ mid m aft, z = mid ++ m :: aft → (Overlooked (a ++ mid) aft ↔ Overlooked (a' ++ mid) aft)) :
    SameButSpeeds (l.drop (elementCount a + 1)) (l'.drop (elementCount a' + 1)) ∧
    ((∀ c c' s v s' v', LastChange a c → LastChange a' c' → Gives c.1 s v → Gives c'.1 s' v' → s = s' ∧ v = v') →
      l.drop (elementCount a + 1) = l'.drop (elementCount a' + 1)) := by
  rcases hz with rfl | hz
  · have key : ∀ {ts : List Token} {l : List (Record F)} {a : List (Token × Role)} {r : Record F}, Meaning ts l → roles ts = a ++ [] →
        l[elementCount a]? = some r → l.drop (elementCount a + 1) = [destination r.rules] := by
      intro ts l a r h hr hl
      rw [List.append_nil] at hr
      obtain ⟨p, k1, k2⟩ := h.arrival
      rw [hr] at k1 k2
      rw [hl] at k1; cases k1
      have hc := h.count
      rw [hr] at hc
      obtain ⟨hlt, hg⟩ := List.getElem?_eq_some_iff.1 k2
      rw [List.drop_eq_getElem_cons hlt, hg, List.drop_eq_nil_iff.2 (by omega)]
    rw [key h hr hl, key h' hr' hl', hru]
    exact ⟨rfl, fun _ => rfl⟩
  · exact same_end h h' hr hr' hz ho

/-- **C72** The flight rules can be changed at any point of an accepted route. Behind any point `p` that is looked at, and the remarks `s`
about it, a section under other rules can be inserted: `VFR`, `OAT` or `IFPSTOP`, any words, the closing word and a point `q` (with a
SPEED/LEVEL; `GAT` and `IFPSTART` need none). The field 15 is accepted again; all elements up to `p` stay the same (the courses may
differ), two elements follow, the break with its rules and the whole text, and `q` under IFR, and then the elements the route had
behind `p`: the same but for their speeds and levels, and altogether the same if the section gives no SPEED/LEVEL or the one in force
at `p`. What follows must not be another remark, and no ATS route if `q` is given by coordinates or bearing and distance. -/
theorem c72 {frames frames' : Nat} {u s v words level : List Token} {p brk close q : Token} {e : Ers F}
    (h : parseF15 frames (Ers.new : Ers F) ⟨u ++ p :: s ++ v, 0⟩ = .ok (true, e)) (hne : ∀ t ∈ u ++ p :: s ++ v, t.text ≠ [])
    {before after : List (Token × Role)} (hr : roles (typedTokens ⟨u ++ p :: s ++ v, 0⟩) = before ++ (assignSyntax p, .head) :: after)
    (hlen : before.length = u.length) (hp : (assignSyntax p).base = .POINT) (hs : Remarks (s.map assignSyntax))
    (hv : ∀ t, v.head? = some t → (assignSyntax t).base ≠ .SLASH ∧ (assignSyntax t).base ≠ .STAY ∧
      ((assignSyntax t).base = .ROUTE → isFixed (assignSyntax q) = false))
    (hx : Section (assignSyntax brk) (words.map assignSyntax) (assignSyntax close) (assignSyntax q) (level.map assignSyntax))
    (hne' : ∀ t ∈ brk :: words ++ close :: q :: level, t.text ≠ [])
    (hf : 4 * (u ++ p :: s ++ (brk :: words ++ close :: q :: level) ++ v).length ≤ frames') :
    ∃ e' a b, parseF15 frames' (Ers.new : Ers F) ⟨u ++ p :: s ++ (brk :: words ++ close :: q :: level) ++ v, 0⟩ = .ok (true, e') ∧
      AllSameButCourse (e.elements.take (elementCount before + 2)) (e'.elements.take (elementCount before + 2)) ∧
      e'.elements[elementCount before + 2]? = some a ∧ a.name = brk.text ∧ a.rules = rulesOfBreak (assignSyntax brk).sub ∧
      a.breakText = spaced (words ++ [close]) ∧
      e'.elements[elementCount before + 3]? = some b ∧ b.name = q.text ∧ b.rules = py! "IFR" ∧
      SameButSpeeds (e.elements.drop (elementCount before + 2)) (e'.elements.drop (elementCount before + 4)) ∧
      ((∀ l d, level.getLast? = some l → e.elements[elementCount before + 1]? = some d → Gives (assignSyntax l) d.speed d.altitude) →
        e.elements.drop (elementCount before + 2) = e'.elements.drop (elementCount before + 4)) := by
  have hT : ∀ l : List Token, ∀ x ∈ typedTokens ⟨l, 0⟩, Typed x := fun l x hx => typed_map hx
  have hTa : ∀ l : List Token, ∀ x ∈ l.map assignSyntax, Typed x := by
    intro l x hx
    obtain ⟨t, _, rfl⟩ := List.mem_map.1 hx
    exact typed_assign t
  obtain ⟨as, hsent⟩ := (sentence_iff (hT _)).1 (c22_sound _ h)
  have htok : before.map (·.1) ++ assignSyntax p :: after.map (·.1) = u.map assignSyntax ++ assignSyntax p :: (s ++ v).map assignSyntax := by
    have := roles_tokens (typedTokens ⟨u ++ p :: s ++ v, 0⟩)
    rw [hr] at this
    simpa [typedTokens] using this
  have hbu : before.map (·.1) = u.map assignSyntax := (List.append_inj htok (by simp [hlen])).1
  have hav : after.map (·.1) = s.map assignSyntax ++ v.map assignSyntax := by
    have := (List.append_inj htok (by simp [hlen])).2
    simpa using this
  have hvs : ¬ Slashed (v.map assignSyntax) := by
    rintro ⟨x, r, he, hx⟩
    obtain ⟨t, l, rfl, rfl, _⟩ := List.map_eq_cons_iff.1 he
    exact (hv t rfl).1 hx
  have hv' : ∀ t, (v.map assignSyntax).head? = some t → t.base ≠ .SLASH ∧ t.base ≠ .STAY ∧ (t.base = .ROUTE → isFixed (assignSyntax q) = false) := by
    intro t ht
    rw [List.head?_map] at ht
    obtain ⟨x, hx, rfl⟩ := Option.map_eq_some_iff.1 ht
    exact hv x hx
  have ho : ∀ b a : List (Token × Role), a.map (·.1) = s.map assignSyntax ++ v.map assignSyntax → ¬ Overlooked b a := fun b a ha =>
    remarks_looked hs ha fun t ht => (hv' t ht).1
  obtain ⟨hn, ⟨as1, hrun⟩, hmark⟩ := sent_cut hsent hr hp (ho _ _ hav)
  rw [hav] at hrun hmark
  obtain ⟨ph, hph, ⟨as2, hrv⟩, hback⟩ := run_remarks hs hrun
  obtain ⟨junk, rest, hjr, hj, hfr⟩ := run_anew hph hrv fun t ht => ⟨(hv' t ht).1, (hv' t ht).2.1⟩
  obtain ⟨as3, hrq⟩ := run_after (f' := isFixed (assignSyntax q)) hph hrv fun t ht => ⟨(hv' t ht).1, (hv' t ht).2.2⟩
  have hbb := hx.start
  have hpa : ph.allows (assignSyntax brk) = true := by rcases hph with rfl | rfl <;> simp [Phase.allows, hbb]
  obtain ⟨⟨as4, hrx⟩, hmx⟩ := run_section hx (by
    intro x hx'
    exact hTa (q :: level) x (by simpa using hx')) (close_short (typed_assign close) hx.stop) hrq hpa
  obtain ⟨as5, hrw⟩ := hback _ _ hrx
  have hxs : ¬ Slashed (assignSyntax brk :: words.map assignSyntax ++ assignSyntax close :: assignSyntax q :: level.map assignSyntax ++ v.map assignSyntax) := by
    rintro ⟨x, r, he, hx'⟩
    cases he
    rw [hbb] at hx'; cases hx'
  obtain ⟨⟨as6, hsent'⟩, hr'⟩ := sent_swap hsent hr hp hn hrw (by rw [hav]; exact slashed_remarks hs hxs hvs)
  have hts : before.map (·.1) ++ assignSyntax p :: (s.map assignSyntax ++ (assignSyntax brk :: words.map assignSyntax ++ assignSyntax close ::
      assignSyntax q :: level.map assignSyntax ++ v.map assignSyntax)) = typedTokens ⟨u ++ p :: s ++ (brk :: words ++ close :: q :: level) ++ v, 0⟩ := by
    rw [hbu]; simp [typedTokens]
  rw [hts] at hsent' hr'
  obtain ⟨e', he'⟩ := (c22 (F := F) (frames := frames') ⟨u ++ p :: s ++ (brk :: words ++ close :: q :: level) ++ v, 0⟩ (by simpa using hf)).2
    ((sentence_iff (hT _)).2 ⟨_, hsent'⟩)
  have m1 := c68 h hne
  have m2 := c68 he' (by
    intro t ht
    simp only [List.mem_append] at ht
    rcases ht with (ht | ht) | ht
    · exact hne t (by simp only [List.mem_append]; exact .inl ht)
    · exact hne' t (by simp only [List.mem_append]; exact ht)
    · exact hne t (by simp only [List.mem_append]; exact .inr ht))
  have ha : after = notes (s.map assignSyntax) ++ junk ++ rest := by
    rw [← hmark, mark_remarks hs, hjr, List.append_assoc]
  generalize hX : (assignSyntax brk, Role.head) :: textOf (words.map assignSyntax) ++ (assignSyntax close, .word) :: (assignSyntax q, .head) ::
    notes (level.map assignSyntax) = X at hmx
  rw [mark_remarks hs, hmx, hjr] at hr'
  rw [ha] at hr
  have hfx : Fresh (X ++ (junk ++ rest)) := by
    rw [← hX]
    exact fresh_cons rfl (by simp [hbb])
  have hbeg := same_beginning m1 m2 hp hr hr' (by cases u <;> simp [typedTokens])
  have hsn : ∀ x ∈ notes (s.map assignSyntax), x.2 = .note := notes_note
  have hjn : ∀ x ∈ junk, x.2 = .note := fun x hx => (hj x hx).1
  -- the point itself
  obtain ⟨r, g1, g2⟩ := m1.route before _ _ hr rfl
  obtain ⟨r', g1', g2'⟩ := m2.route before _ _ hr' rfl
  have hpt : unaim r = unaim r' := point_same hp hsn hj hfr hfx g2 g2'
    (ho _ _ (by rw [← ha]; exact hav)) (remarks_looked hs (v := (X ++ (junk ++ rest)).map (·.1)) (by simp [notes]) (by
      intro t ht
      rw [← hX] at ht
      cases ht
      rw [hbb]; simp))
  -- the section
  have hr2 : roles (typedTokens ⟨u ++ p :: s ++ (brk :: words ++ close :: q :: level) ++ v, 0⟩) =
      (before ++ (assignSyntax p, .head) :: notes (s.map assignSyntax)) ++ (assignSyntax brk, .head) :: (textOf (words.map assignSyntax) ++
        (assignSyntax close, .word) :: (assignSyntax q, .head) :: (notes (level.map assignSyntax) ++ (junk ++ rest))) := by
    rw [hr', ← hX]; simp
  have hr3 : roles (typedTokens ⟨u ++ p :: s ++ (brk :: words ++ close :: q :: level) ++ v, 0⟩) =
      (before ++ (assignSyntax p, .head) :: notes (s.map assignSyntax) ++ (assignSyntax brk, .head) :: (textOf (words.map assignSyntax) ++
        [(assignSyntax close, .word)])) ++ (assignSyntax q, .head) :: (notes (level.map assignSyntax) ++ (junk ++ rest)) := by
    rw [hr2]; simp
  have c1 : elementCount (before ++ (assignSyntax p, .head) :: notes (s.map assignSyntax)) = elementCount before + 1 := by
    rw [count_mid, show (assignSyntax p, Role.head) :: notes (s.map assignSyntax) = [(assignSyntax p, Role.head)] ++ notes (s.map assignSyntax) by rfl,
      count_mid, count_note hsn]; rfl
  have c2 : elementCount (before ++ (assignSyntax p, .head) :: notes (s.map assignSyntax) ++ (assignSyntax brk, .head) ::
      (textOf (words.map assignSyntax) ++ [(assignSyntax close, .word)])) = elementCount before + 2 := by
    rw [count_mid, c1, show (assignSyntax brk, Role.head) :: (textOf (words.map assignSyntax) ++ [(assignSyntax close, Role.word)]) =
      [(assignSyntax brk, Role.head)] ++ (textOf (words.map assignSyntax) ++ [(assignSyntax close, Role.word)]) by rfl,
      count_mid, count_mid, count_text]; rfl
  obtain ⟨x, x1, x2⟩ := m2.route _ _ _ hr2 rfl
  obtain ⟨y, y1, y2⟩ := m2.route _ _ _ hr3 rfl
  rw [c1] at x1
  rw [c2] at y1
  have hqp := hx.point
  have hy : y.rules = py! "IFR" := by rw [y2.rules]; simp [elementRules, hqp]
  -- the end
  have hra : roles (typedTokens ⟨u ++ p :: s ++ v, 0⟩) = (before ++ (assignSyntax p, .head) :: notes (s.map assignSyntax) ++ junk) ++ rest := by
    rw [hr]; simp
  have hrb : roles (typedTokens ⟨u ++ p :: s ++ (brk :: words ++ close :: q :: level) ++ v, 0⟩) =
      (before ++ (assignSyntax p, .head) :: notes (s.map assignSyntax) ++ X ++ junk) ++ rest := by
    rw [hr']; simp
  have c3 : elementCount (before ++ (assignSyntax p, .head) :: notes (s.map assignSyntax) ++ junk) = elementCount before + 1 := by
    rw [count_mid, c1, count_note hjn]
  have c4 : elementCount (before ++ (assignSyntax p, .head) :: notes (s.map assignSyntax) ++ X ++ junk) = elementCount before + 3 := by
    rw [count_mid, count_note hjn, ← hX]
    have : before ++ (assignSyntax p, .head) :: notes (s.map assignSyntax) ++ ((assignSyntax brk, Role.head) :: textOf (words.map assignSyntax) ++
        (assignSyntax close, .word) :: (assignSyntax q, .head) :: notes (level.map assignSyntax)) =
      before ++ (assignSyntax p, .head) :: notes (s.map assignSyntax) ++ (assignSyntax brk, .head) ::
      (textOf (words.map assignSyntax) ++ [(assignSyntax close, .word)]) ++ ([(assignSyntax q, .head)] ++ notes (level.map assignSyntax)) := by simp
    rw [this, count_mid, c2, count_mid, count_note notes_note]; rfl
  have hend := same_tail m1 m2 hra hrb (by rw [c3]; exact g1) (by rw [c4]; exact y1)
    (by rw [g2.rules, hy]; simp [elementRules, hp])
    (by
      rcases hfr with h | ⟨m, r, h, hm, _⟩
      · exact .inl h
      · right; rw [h]; simp [elementCount, hm])
    (by
      intro mid m aft he
      cases mid with
      | cons => exact over_mid (by simp)
      | nil =>
        rw [List.append_nil, List.append_nil]
        have o1 : ¬ Overlooked (before ++ (assignSyntax p, .head) :: notes (s.map assignSyntax) ++ junk) aft := by
          have := not_over (b := before) (m := (assignSyntax p, Role.head)) (n := notes (s.map assignSyntax) ++ junk) (aft := aft) (by simp) (by
            intro x hx
            rcases List.mem_append.1 hx with h | h
            · exact hsn x h
            · exact hjn x h)
          simpa using this
        have o2 : ¬ Overlooked (before ++ (assignSyntax p, .head) :: notes (s.map assignSyntax) ++ X ++ junk) aft := by
          rw [← hX]
          have := not_over (b := before ++ (assignSyntax p, .head) :: notes (s.map assignSyntax) ++ (assignSyntax brk, .head) ::
            (textOf (words.map assignSyntax) ++ [(assignSyntax close, .word)])) (m := (assignSyntax q, Role.head))
            (n := notes (level.map assignSyntax) ++ junk) (aft := aft) (by simp) (by
            intro x hx
            rcases List.mem_append.1 hx with h | h
            · exact notes_note x h
            · exact hjn x h)
          simpa using this
        exact ⟨fun h => absurd h o1, fun h => absurd h o2⟩)
  rw [c3, c4] at hend
  refine ⟨e', x, y, he', ?_, x1, ?_, ?_, ?_, y1, ?_, hy, hend.1, fun hg => hend.2 ?_⟩
  · obtain ⟨b1, b2⟩ := hbeg
    have l1 : elementCount before + 2 ≤ e.elements.length := by rw [m1.count, hra, count_mid, c3]; omega
    have l2 : elementCount before + 2 ≤ e'.elements.length := by rw [m2.count, hrb, count_mid, c4]; omega
    refine ⟨by simp [l1, l2], fun i d d' h1 h2 => ?_⟩
    have hi : i < elementCount before + 2 := by
      have := (List.getElem?_eq_some_iff.1 h1).1
      simp at this; omega
    rw [List.getElem?_take_of_lt hi] at h1 h2
    by_cases hi' : i < elementCount before + 1
    · exact b2 i d d' (by rw [List.getElem?_take_of_lt hi']; exact h1) (by rw [List.getElem?_take_of_lt hi']; exact h2)
    · have : i = elementCount before + 1 := by omega
      subst this
      rw [h1] at g1; rw [h2] at g1'
      cases g1; cases g1'
      exact same_unaim hpt
  · obtain ⟨_, _, k, _⟩ := x2.name
    rw [k]; simp [hbb, assign_text]
  · rw [x2.rules]; simp [elementRules, hbb]
  · rw [x2.text, about_words rfl, joined_text]; simp [startsText, hbb]
  · obtain ⟨_, _, k, _⟩ := y2.name
    rw [k]; simp [hqp, assign_text]
  · intro c c' sp al sp' al' hc hc' hgc hgc'
    obtain ⟨c0, f1, f2⟩ := g2.filled.change
    rw [upTo_noted (by
      intro x hx
      rcases List.mem_append.1 hx with h | h
      · exact hsn x h
      · exact hjn x h) hfr] at f1
    have hc1 : LastChange (before ++ (assignSyntax p, .head) :: notes (s.map assignSyntax) ++ junk) c0 := by simpa using f1
    rw [last_change_unique hc hc1] at hgc
    obtain ⟨k1, k2⟩ := gives_unique hgc f2
    rw [change_idle hj] at hc' hc1
    have hX' : ∀ x ∈ (assignSyntax brk, Role.head) :: textOf (words.map assignSyntax) ++ [(assignSyntax close, .word), (assignSyntax q, .head)],
        isChange x = false := by
      intro x hx
      simp only [List.cons_append, List.mem_cons, List.mem_append, List.not_mem_nil, or_false] at hx
      rcases hx with rfl | hx | rfl | rfl
      · simp [isChange, hbb]
      · obtain ⟨t, _, rfl⟩ := List.mem_map.1 hx
        rfl
      · rfl
      · simp [isChange, hqp]
    have hXe : X = (assignSyntax brk, Role.head) :: textOf (words.map assignSyntax) ++ [(assignSyntax close, .word), (assignSyntax q, .head)] ++
        notes (level.map assignSyntax) := by rw [← hX]; simp
    rw [hXe, ← List.append_assoc] at hc'
    rcases hx.level with ⟨hl, _⟩ | ⟨s', l', hl, hs1, hl1, _⟩
    · have : notes (level.map assignSyntax) = [] := by rw [hl]; rfl
      rw [this, List.append_nil] at hc'
      rcases last_change_append hc' with ⟨_, _, hh, hch, _⟩ | ⟨_, hc'⟩
      · rw [hX' c' (by rw [hh]; simp)] at hch; cases hch
      · rw [last_change_unique hc' hc1] at hgc'
        obtain ⟨k3, k4⟩ := gives_unique hgc' f2
        exact ⟨k1.trans k3.symm, k2.trans k4.symm⟩
    · obtain ⟨s0, l0, rfl, rfl, hl0⟩ := List.map_eq_cons_iff.1 hl
      obtain ⟨l2, l3, rfl, rfl, hl3⟩ := List.map_eq_cons_iff.1 hl0
      rw [List.map_eq_nil_iff] at hl3
      subst hl3
      have hcl : LastChange (before ++ (assignSyntax p, .head) :: notes (s.map assignSyntax) ++ ((assignSyntax brk, Role.head) ::
          textOf (words.map assignSyntax) ++ [(assignSyntax close, .word), (assignSyntax q, .head)]) ++ notes ([s0, l2].map assignSyntax))
          (assignSyntax l2, .note) :=
        ⟨before ++ (assignSyntax p, .head) :: notes (s.map assignSyntax) ++ ((assignSyntax brk, Role.head) ::
          textOf (words.map assignSyntax) ++ [(assignSyntax close, .word), (assignSyntax q, .head)]) ++ [(assignSyntax s0, .note)], [],
          by simp [notes], by simp [isChange, hl1], by simp⟩
      rw [last_change_unique hc' hcl] at hgc'
      obtain ⟨k3, k4⟩ := gives_unique hgc' (hg l2 r rfl g1)
      exact ⟨k1.trans k3.symm, k2.trans k4.symm⟩

/-! ### Examples -/

/-- A section under OAT rules. -/
example : ∃ e e' : Ers Rat, ∃ a : Record Rat,
    parseF15 100 Ers.new ⟨exFirst ++ exTok (py! "PNT") :: [exTok (py! "/"), exTok (py! "N0460F360")] ++ exSecond.drop 2, 0⟩ = .ok (true, e) ∧
    parseF15 100 Ers.new ⟨exFirst ++ exTok (py! "PNT") :: [exTok (py! "/"), exTok (py! "N0460F360")] ++
      (exTok (py! "OAT") :: [exTok (py! "SOME"), exTok (py! "TEXT")] ++ exTok (py! "GAT") :: exTok (py! "KONAN") :: []) ++ exSecond.drop 2, 0⟩ =
      .ok (true, e') ∧
    e.elements.length = 8 ∧ e'.elements[4]? = some a ∧ a.rules = py! "OAT" ∧ a.breakText = py! "SOME TEXT GAT" ∧
    e.elements.drop 4 = e'.elements.drop 6 := by
  have hacc : ((parseF15 100 (Ers.new : Ers Rat) ⟨exFirst ++ exTok (py! "PNT") :: [exTok (py! "/"), exTok (py! "N0460F360")] ++ exSecond.drop 2, 0⟩
      ).toOption.map fun x => (x.1, x.2.elements.length)) = some (true, 8) := by decide +kernel
  cases h : parseF15 100 (Ers.new : Ers Rat) ⟨exFirst ++ exTok (py! "PNT") :: [exTok (py! "/"), exTok (py! "N0460F360")] ++ exSecond.drop 2, 0⟩ with
  | error => rw [h] at hacc; simp [Except.toOption] at hacc
  | ok x =>
    obtain ⟨b, e⟩ := x
    rw [h] at hacc
    simp only [Except.toOption, Option.map_some, Option.some.injEq, Prod.mk.injEq] at hacc
    obtain ⟨rfl, hlen⟩ := hacc
    obtain ⟨e', a, b, k1, _, k2, _, k3, k4, _, _, _, _, k5⟩ := c72 (frames' := 100) (q := exTok (py! "KONAN")) (brk := exTok (py! "OAT"))
      (close := exTok (py! "GAT")) (words := [exTok (py! "SOME"), exTok (py! "TEXT")]) (level := [])
      (before := [(assignSyntax (exTok (py! "N0450F350")), .note), (assignSyntax (exTok (py! "LNZ")), .head), (assignSyntax (exTok (py! "UL856")), .head)])
      (after := (roles (typedTokens ⟨exFirst ++ exTok (py! "PNT") :: [exTok (py! "/"), exTok (py! "N0460F360")] ++ exSecond.drop 2, 0⟩)).drop 4)
      h (by decide +kernel) (by decide +kernel) (by decide +kernel) (by decide +kernel)
      (.level (by decide +kernel) (by decide +kernel) .none)
      (by intro t ht; cases ht; decide +kernel)
      ⟨by decide +kernel, by decide +kernel, by decide +kernel, by decide +kernel,
        by simp [PositionOk, show (assignSyntax (exTok (py! "KONAN"))).sub = .PRP from by decide +kernel], .inl ⟨rfl, by decide +kernel⟩⟩
      (by decide +kernel) (by decide +kernel)
    have hr : rulesOfBreak (assignSyntax (exTok (py! "OAT"))).sub = py! "OAT" := by decide +kernel
    exact ⟨e, e', a, rfl, k1, hlen, k2, k3.trans hr, k4, k5 (by simp)⟩

/-- The rules cannot be changed on an ATS route; behind `IFR` a point without SPEED/LEVEL does not end the text; and an ATS route cannot
start at coordinates. -/
example : check (py! "N0450F350 LNZ UL856 VFR TEXT IFR PNT/N0450F350 UL856 ABC") (fun b _ => b) = false ∧
    check (py! "N0450F350 LNZ VFR TEXT IFR ABC UL856 PNT") (fun b e => b && e.elements.length == 4) = true ∧
    check (py! "N0450F350 LNZ OAT TEXT GAT 46N050W UL856 PNT") (fun b _ => b) = false := by decide +kernel

end F15
