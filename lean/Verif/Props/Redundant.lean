import Verif.Props.Remark
/-!
# C76: saying again what is already so changes nothing
-/

namespace F15
open Spec

set_option linter.unusedSectionVars false
variable {F : Type} [PyFloat F]

/-- Remarks give at most one stay. -/
theorem stays_unique {s : List Token} (hs : Remarks s) {t t' : Token} (ht : t ∈ s) (ht' : t' ∈ s) (hb : t.base = .STAY_TIME)
    (hb' : t'.base = .STAY_TIME) : t = t' := by
  induction hs with
  | none => cases ht
  | @level s l rest hs hl hrem ih =>
    simp only [List.mem_cons] at ht ht'
    rcases ht with rfl | rfl | ht
    · rw [hs] at hb; cases hb
    · rw [hl] at hb; cases hb
    · rcases ht' with rfl | rfl | ht'
      · rw [hs] at hb'; cases hb'
      · rw [hl] at hb'; cases hb'
      · exact ih ht ht'
  | @stay x s m hx hs hm =>
    simp only [List.mem_cons, List.not_mem_nil, or_false] at ht ht'
    rcases ht with rfl | rfl | rfl
    · rw [hx] at hb; cases hb
    · rw [hs] at hb; cases hb
    · rcases ht' with rfl | rfl | rfl
      · rw [hx] at hb'; cases hb'
      · rw [hs] at hb'; cases hb'
      · rfl

theorem stay_in_unique {s : List Token} (hs : Remarks s) {n n' : Int} (h : StayIn s n) (h' : StayIn s n') : n = n' := by
  rcases h with ⟨h, h0⟩ | ⟨t, ht, hb, hm⟩ <;> rcases h' with ⟨h', h0'⟩ | ⟨t', ht', hb', hm'⟩
  · rw [h, h']
  · exact absurd hb' (h0 t' ht')
  · exact absurd hb (h0' t ht)
  · rw [stays_unique hs ht ht' hb hb'] at hm
    exact minutes_unique hm hm'

theorem last_level_unique {a a' b b' : List Token} {t t' : Token} (h : a ++ t :: b = a' ++ t' :: b') (hb : t.base = .SPEED_ALTITUDE)
    (hb' : t'.base = .SPEED_ALTITUDE) (hn : ∀ x ∈ b, x.base ≠ .SPEED_ALTITUDE) (hn' : ∀ x ∈ b', x.base ≠ .SPEED_ALTITUDE) : t = t' := by
  rcases List.append_eq_append_iff.1 h with ⟨x, rfl, h1⟩ | ⟨x, rfl, h1⟩
  · cases x with
    | nil => cases h1; rfl
    | cons y x => cases h1; exact absurd hb' (hn t' (by simp))
  · cases x with
    | nil => cases h1; rfl
    | cons y x => cases h1; exact absurd hb (hn' t (by simp))

theorem speed_in_unique {s : List Token} {d r r' : Record F} (h : SpeedIn s d r) (h' : SpeedIn s d r') :
    r.speed = r'.speed ∧ r.altitude = r'.altitude := by
  rcases h with ⟨a, t, b, he, hb, hn, hg⟩ | ⟨h0, h1, h2⟩ <;> rcases h' with ⟨a', t', b', he', hb', hn', hg'⟩ | ⟨h0', h1', h2'⟩
  · rw [last_level_unique (he.symm.trans he') hb hb' hn hn'] at hg
    exact gives_unique hg hg'
  · exact absurd hb (h0' t (by rw [he]; simp))
  · exact absurd hb' (h0 t' (by rw [he']; simp))
  · exact ⟨h1.trans h1'.symm, h2.trans h2'.symm⟩

/-- The numbers are those of the texts. -/
theorem si_same {frames frames' : Nat} {tokens tokens' : Tokens} {b b' : Bool} {e e' : Ers F}
    (h : parseF15 frames (Ers.new : Ers F) tokens = .ok (b, e)) (h' : parseF15 frames' (Ers.new : Ers F) tokens' = .ok (b', e'))
    {r r' : Record F} (hr : r ∈ e.elements) (hr' : r' ∈ e'.elements) (hs : r.speed = r'.speed) (ha : r.altitude = r'.altitude)
    (hw : withoutRemarks r = withoutRemarks r') (hst : r.stayTime = r'.stayTime) : r = r' := by
  have key : r.speedSi = r'.speedSi ∧ r.altitudeSi = r'.altitudeSi := by
    rcases ((parse_cause h).2.2 r hr).1 with hq | ⟨sp, lv, h1, h2, hq⟩ <;> rcases ((parse_cause h').2.2 r' hr').1 with hq' | ⟨sp', lv', h1', h2', hq'⟩ <;>
      simp only [quad, quadOf, Prod.mk.injEq] at hq hq'
    · exact ⟨hq.2.1.trans hq'.2.1.symm, hq.2.2.2.trans hq'.2.2.2.symm⟩
    · rw [hq.2.2.1, hq'.2.2.1] at ha
      rw [← ha] at h2'
      rcases h2' with ⟨_, _, _, hx, _⟩ | ⟨_, _, _, hx, _⟩ <;> cases hx
    · rw [hq.2.2.1, hq'.2.2.1] at ha
      rw [ha] at h2
      rcases h2 with ⟨_, _, _, hx, _⟩ | ⟨_, _, _, hx, _⟩ <;> cases hx
    · have e1 : sp = sp' := by rw [← hq.1, ← hq'.1, hs]
      have e2 : lv = lv' := by rw [← hq.2.2.1, ← hq'.2.2.1, ha]
      subst e1; subst e2
      exact ⟨hq.2.1.trans hq'.2.1.symm, hq.2.2.2.trans hq'.2.2.2.symm⟩
  obtain ⟨k1, k2⟩ := key
  cases r; cases r'
  simp only [withoutRemarks, withoutSpeed, Record.mk.injEq] at *
  simp_all

/-- **C76** Saying again what is already so changes nothing. In an accepted field 15 the remarks `s` about a point may be replaced by any
remarks `s'` (valid levels) that say of the point what is already so: the stay given in `s'` (none, if there is none) is the stay of the
point's element, and the speed and level given last in `s'` (those of the element before it, if there are none) are its speed and level.
The result of the parse is then the same in everything. -/
theorem c76 {frames frames' : Nat} {u s s' v : List Token} {p : Token} {e : Ers F}
    (h : parseF15 frames (Ers.new : Ers F) ⟨u ++ p :: s ++ v, 0⟩ = .ok (true, e)) (hne : ∀ t ∈ u ++ p :: (s ++ s') ++ v, t.text ≠ [])
    {before after : List (Token × Role)} (hr : roles (typedTokens ⟨u ++ p :: s ++ v, 0⟩) = before ++ (assignSyntax p, .head) :: after)
    (hlen : before.length = u.length) (hp : (assignSyntax p).base = .POINT) (hs : Remarks (s.map assignSyntax))
    (hs' : Remarks (s'.map assignSyntax)) (hl : ∀ t ∈ s', (assignSyntax t).base = .SPEED_ALTITUDE → LevelOk t.text)
    (hifr : ∀ t, u.getLast? = some t → (assignSyntax t).sub = .IFR → ∃ x, s'.head? = some x ∧ (assignSyntax x).base = .SLASH)
    (hv : ∀ t, v.head? = some t → (assignSyntax t).base ≠ .SLASH ∧ (assignSyntax t).base ≠ .STAY ∧
      ((assignSyntax t).base = .ROUTE → isFixed (assignSyntax p) = true → ∃ x ∈ s', (assignSyntax x).base = .STAY))
    {d r : Record F} (hd : e.elements[elementCount before]? = some d) (hre : e.elements[elementCount before + 1]? = some r)
    (hsp : SpeedIn (s'.map assignSyntax) d r) (hst : StayIn (s'.map assignSyntax) r.stayTime)
    (hf : 4 * (u ++ p :: s' ++ v).length ≤ frames') :
    parseF15 frames' (Ers.new : Ers F) ⟨u ++ p :: s' ++ v, 0⟩ = .ok (true, e) := by
  obtain ⟨e', h', hrem⟩ := c75 h hne hr hlen hp hs hs' hl hifr hv hf
  obtain ⟨d', r1, r', k1, k2, k3, k4, k5, k6⟩ := hrem.here
  have hdd : d' = d := by
    have := congrArg (fun l => l[elementCount before]?) hrem.before
    simp only [List.getElem?_take_of_lt (Nat.lt_succ_self _)] at this
    rw [Nat.add_sub_cancel] at k1
    rw [hd, k1] at this
    cases this; rfl
  subst hdd
  rw [hre] at k2
  cases k2
  have hlen' : e.elements.length = e'.elements.length := by simpa using congrArg List.length hrem.same
  have hget : ∀ (i : Nat) x x', e.elements[i]? = some x → e'.elements[i]? = some x' → withoutRemarks x = withoutRemarks x' := by
    intro i x x' h1 h2
    have := congrArg (fun l => l[i]?) hrem.same
    simp only [List.getElem?_map, h1, h2, Option.map_some, Option.some.injEq] at this
    exact this
  obtain ⟨q1, q2⟩ := speed_in_unique hsp k5
  have hrr : r = r' := si_same h h' (List.mem_of_getElem? hre) (List.mem_of_getElem? k3) q1 q2 (hget _ _ _ hre k3) (stay_in_unique hs' hst k4)
  subst hrr
  have hel : e.elements = e'.elements := by
    apply List.ext_getElem?
    intro i
    by_cases hi : i < e.elements.length
    · have e1 := List.getElem?_eq_getElem (l := e.elements) (i := i) hi
      have e2 := List.getElem?_eq_getElem (l := e'.elements) (i := i) (by omega)
      by_cases h1 : i < elementCount before + 1
      · have := congrArg (fun l => l[i]?) hrem.before
        simp only [List.getElem?_take_of_lt h1] at this
        exact this
      · by_cases h2 : i = elementCount before + 1
        · rw [h2, hre, k3]
        · rcases k6 i _ _ (by omega) e1 e2 with hx | ⟨x1, x2, x3, x4, x5⟩
          · rw [e1, e2, hx]
          · rw [e1, e2]
            exact congrArg some (si_same h h' (List.mem_of_getElem? e1) (List.mem_of_getElem? e2) (x2.trans x4.symm) (x3.trans x5.symm) (hget _ _ _ e1 e2) x1)
    · rw [List.getElem?_eq_none (by omega), List.getElem?_eq_none (by omega)]
  have hn : (Ers.new : Ers F).elements ≠ [] := by show (Ers.new : Ers F).recs.reverse ≠ []; simp [new_recs]
  have er := (c13 hn h).1 rfl
  have er' := (c13 hn h').1 rfl
  have dr := (c14 hn (by simp) h).1
  have dr' := (c14 hn (by simp) h').1
  rw [hel, ← dr'] at dr
  have : e' = e := by
    cases e; cases e'
    simp only [Ers.elements, Ers.errors, List.reverse_inj, List.reverse_eq_nil_iff] at *
    subst hel; subst er; subst er'; subst dr
    rfl
  rw [h', this]

/-! ### Examples -/

/-- `ABC/N0450F350` behind `N0450F350`, and nothing said about `ABC`, are the same. -/
example : ∃ e : Ers Rat,
    parseF15 100 Ers.new ⟨[exTok (py! "N0450F350")] ++ exTok (py! "ABC") :: [] ++ [exTok (py! "DEF")], 0⟩ = .ok (true, e) ∧
    parseF15 100 Ers.new ⟨[exTok (py! "N0450F350")] ++ exTok (py! "ABC") :: [exTok (py! "/"), exTok (py! "N0450F350")] ++ [exTok (py! "DEF")], 0⟩ =
      .ok (true, e) ∧ e.elements.length = 4 := by
  have hacc : ((parseF15 100 (Ers.new : Ers Rat) ⟨[exTok (py! "N0450F350")] ++ exTok (py! "ABC") :: [] ++ [exTok (py! "DEF")], 0⟩).toOption.map fun x =>
      (x.1, x.2.elements.map (fun r => (r.speed, r.altitude, r.stayTime)))) = some (true,
      [(py! "N0450", py! "F350", 0), (py! "N0450", py! "F350", 0), (py! "N0450", py! "F350", 0), ([], [], 0)]) := by decide +kernel
  cases h : parseF15 100 (Ers.new : Ers Rat) ⟨[exTok (py! "N0450F350")] ++ exTok (py! "ABC") :: [] ++ [exTok (py! "DEF")], 0⟩ with
  | error => rw [h] at hacc; simp [Except.toOption] at hacc
  | ok x =>
    obtain ⟨b, e⟩ := x
    rw [h] at hacc
    simp only [Except.toOption, Option.map_some, Option.some.injEq, Prod.mk.injEq] at hacc
    obtain ⟨rfl, hal⟩ := hacc
    have hlen := congrArg List.length hal
    simp only [List.length_map, List.length_cons, List.length_nil, Nat.zero_add, Nat.reduceAdd] at hlen
    have e0 := List.getElem?_eq_getElem (l := e.elements) (i := 0) (by omega)
    have e1 := List.getElem?_eq_getElem (l := e.elements) (i := 1) (by omega)
    have k := congrArg (fun l => l[1]?) hal
    simp only [List.getElem?_map, e1, Option.map_some] at k
    obtain ⟨q1, q2, q3⟩ : e.elements[1].speed = py! "N0450" ∧ e.elements[1].altitude = py! "F350" ∧ e.elements[1].stayTime = 0 := by
      simpa using k
    refine ⟨e, rfl, ?_, hlen⟩
    refine c76 (frames' := 100) (s' := [exTok (py! "/"), exTok (py! "N0450F350")])
      (before := [(assignSyntax (exTok (py! "N0450F350")), .note)]) (after := [(assignSyntax (exTok (py! "DEF")), .head)])
      h (by decide +kernel) (by decide +kernel) (by decide +kernel) (by decide +kernel) .none
      (.level (by decide +kernel) (by decide +kernel) .none)
      (by
        have : ([exTok (py! "/"), exTok (py! "N0450F350")].all fun t =>
          decide ((assignSyntax t).base ≠ .SPEED_ALTITUDE) || decide (t.text = py! "N0450F350")) = true := by decide +kernel
        intro t ht hb
        have := List.all_eq_true.1 this t ht
        simp only [hb, ne_eq, not_true_eq_false, decide_false, Bool.false_or, decide_eq_true_eq] at this
        rw [this]
        exact (levelOk_iff (typed_assign (exTok (py! "N0450F350"))) (by decide +kernel)).2 (by decide +kernel))
      (by intro t ht; cases ht; intro h; revert h; decide +kernel)
      (by intro t ht; cases ht; decide +kernel) (d := e.elements[0]) (r := e.elements[1]) e0 e1
      (.inl ⟨[assignSyntax (exTok (py! "/"))], assignSyntax (exTok (py! "N0450F350")), [], rfl, by decide +kernel, by simp, ?_⟩)
      (.inl ⟨q3, by decide +kernel⟩) (by decide +kernel)
    rw [q1, q2]
    unfold Gives
    rw [show (assignSyntax (exTok (py! "N0450F350"))).base = .SPEED_ALTITUDE by decide +kernel]
    refine ⟨.inr ⟨'N', py! "0450", by decide, rfl, rfl, ?_⟩, .inl ⟨'F', py! "350", by decide, rfl, rfl, ?_⟩, by decide +kernel⟩ <;>
    · intro c hc
      have : ∀ c ∈ py! "0450350", '0' ≤ c ∧ c ≤ '9' := by decide
      exact this c (by simp only [List.mem_cons, List.not_mem_nil, or_false] at hc ⊢; grind)

/-- With another speed the result is another. -/
example : ((parseText (py! "N0450F350 ABC/N0440F350 DEF")).toOption.map fun x => (x.1, x.2.elements.map (·.speed))) =
    some (true, [py! "N0450", py! "N0440", py! "N0440", []]) := by decide +kernel

end F15
