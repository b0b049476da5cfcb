import Verif.Props.Recover
import Verif.Lemmas.FreeText
import Verif.Lemmas.Locate
/-!
# C86: a word that cannot come next costs one error and nothing else

C63 is about words that fit nowhere. This is about words that do not fit *here*: a second DCT after DCT, a second ATS route, an ATS route behind
coordinates, VFR behind DCT, a STAR behind an ATS route, `C` or `STAY1` behind the ADEP, `/` behind DCT and so on: any word with which the beginning of the
field 15 can no longer be completed to an acceptable one (`Extendable`, Spec/Faults.lean).
-/

namespace F15
open Spec

set_option linter.unusedSectionVars false
variable {F : Type} [PyFloat F]

/-- After a phase between items, a word that is no point and no SID either is unfit or can be read on from. -/
theorem fit_goes_on {z : Phase} (ho : Open (some z)) {w : Token} (hp : w.base ≠ .POINT) (hs : w.base ≠ .SID)
    (hu : ¬ unfit z w = true) : ∃ v bs, (∀ x ∈ v, Typed x) ∧ Run z (w :: v) bs := by
  have hc : z.allows w = true ∨ ∃ f, z = .point f ∧ w.base = .SLASH := by
    cases ha : z.allows w with
    | true => exact .inl rfl
    | false =>
      right
      cases z with
      | point f => exact ⟨f, rfl, Classical.byContradiction fun h => hu (by simp [unfit, ha, hp, hs, h])⟩
      | text r => exact ho.elim
      | climb => exact ho.elim
      | _ => exact absurd (by simp [unfit, ha, hp, hs]) hu
  rcases hc with ha | ⟨f, rfl, hb⟩
  · cases hb : w.base
    case TRUNCATE => exact ⟨[], _, by simp, .truncate ha hb⟩
    case STAR => exact ⟨[], _, by simp, .star ha (.inl hb)⟩
    case SID_STAR =>
      by_cases hz : z = .adep
      · subst hz; exact ⟨[], _, by simp, .sid (.inr hb) (.stop _)⟩
      · exact ⟨[], _, by simp, .star ha (.inr ⟨hb, hz⟩)⟩
    case DCT => exact ⟨[], _, by simp, .dct ha hb (.stop _)⟩
    case ROUTE => exact ⟨[], _, by simp, .route ha hb (.stop _)⟩
    case C => exact ⟨[], _, by simp, .climb ha hb (.stop _)⟩
    case BREAK_START => exact ⟨[], _, by simp, .break_ ha hb (.stop _)⟩
    case STAY =>
      refine ⟨[mkTok (py! "/"), mkTok (py! "0130")], _, ?_, .stay ha hb mk_slash mk_time (.stop _)⟩
      intro x hx
      simp only [List.mem_cons, List.not_mem_nil, or_false] at hx
      rcases hx with rfl | rfl <;> exact mk_typed _
    case POINT => exact absurd hb hp
    case SID => exact absurd hb hs
    all_goals
      exfalso
      revert ha
      cases z <;> simp [Phase.allows, hb]
  · refine ⟨[mkTok (py! "N0450F350")], _, ?_, .level hb mk_level (fun _ => (levelOk_iff (mk_typed _) mk_level).1 mk_level_ok) (.stop _)⟩
    intro x hx
    rw [List.mem_singleton.1 hx]; exact mk_typed _

/-- A beginning with a word that cannot come next cannot be completed, and conversely. -/
theorem unfit_of_not {t : Token} {u : List Token} {w : Token} {as : List Act} {z : Phase}
    (hb : (assignSyntax t).base = .SPEED_VFR ∨ (assignSyntax t).base = .SPEED_ALTITUDE) (hn : (startAct (assignSyntax t)).nums = [])
    (hr : RunTo (startPhase (assignSyntax t)) (u.map assignSyntax) as (some z)) (ho : Open (some z))
    (hp : (assignSyntax w).base ≠ .POINT) (hs : (assignSyntax w).base ≠ .SID)
    (hx : ¬ Extendable ((t :: u ++ [w]).map assignSyntax)) : unfit z (assignSyntax w) = true := by
  refine Classical.byContradiction fun hu => hx ?_
  obtain ⟨v, bs, hv, hrun⟩ := fit_goes_on ho hp hs hu
  have h := hr.append (.inl ho) rfl hrun
  refine ⟨v, hv, ?_⟩
  have hT : ∀ x ∈ (t :: u ++ [w]).map assignSyntax ++ v, Typed x := by
    intro x hx
    rcases List.mem_append.1 hx with h | h
    · exact typed_map h
    · exact hv x h
  rw [sentence_iff hT]
  have heq : (t :: u ++ [w]).map assignSyntax ++ v = assignSyntax t :: (u.map assignSyntax ++ assignSyntax w :: v) := by simp
  rw [heq]
  unfold startPhase at h
  unfold startAct at hn
  rcases hb with hb | hb
  · rw [if_pos hb] at h
    exact ⟨_, .vfr hb h⟩
  · rw [if_neg (by rw [hb]; decide)] at h hn
    exact ⟨_, .ifr hb (fun _ => hn) (by simp) h⟩

/-- **C86** Take a field 15 that is accepted, cut it between items, and put after each piece a word that cannot come next there: no acceptable field 15 begins with
the words up to the cut and this word. It must be no point and no SID; of two inserted words that follow one another the second one must be of no known form. If
the stack is deep enough the parse returns, with exactly the same elements and derived rules, False unless nothing was inserted, and with one error for each
inserted word, in order, each at that word and in its text. -/
theorem c86 {frames : Nat} {ps : List (List Token × Token)} {ts : List Token} {e : Ers F} (hts : ts ≠ [] ∨ ¬ Closed (inPieces ps ts))
    (hb : ∀ k, k < ps.length → Between F frames ((ps.take (k + 1)).flatMap (·.1)))
    (hw : ∀ k p, ps[k]? = some p → ¬ Extendable (((ps.take (k + 1)).flatMap (·.1) ++ [p.2]).map assignSyntax))
    (hk : ∀ p ∈ ps, (assignSyntax p.2).base ≠ .POINT ∧ (assignSyntax p.2).base ≠ .SID ∧ (p.1 = [] → Foreign p.2))
    (hf : 4 * (interspersed ps ts).length ≤ frames)
    (h : parseF15 frames (Ers.new : Ers F) ⟨inPieces ps ts, 0⟩ = .ok (true, e)) :
    ∃ e', parseF15 frames (Ers.new : Ers F) ⟨interspersed ps ts, 0⟩ = .ok (ps.isEmpty, e') ∧
      e'.elements = e.elements ∧ e'.derived = e.derived ∧
      e'.errors.length = ps.length ∧
      ∀ (k : Nat) (p : List Token × Token) (r : Record F), ps[k]? = some p → e'.errors[k]? = some r →
        ∃ n, ErrorIs (assignSyntax p.2) n r := by
  refine cut_core hts hb ?_ (fun p hp => (hk p hp).2.2) hf h
  intro k p hp t u as z hu hr ho
  have hx := hw k p hp
  rw [hu] at hx
  obtain ⟨h1, h2, _⟩ := hk p (List.mem_of_getElem? hp)
  -- the first word of the field 15
  have hfirst : ∃ rest, inPieces ps ts = t :: rest := by
    unfold inPieces
    rw [← List.take_append_drop (k + 1) ps, List.flatMap_append, hu]
    exact ⟨_, rfl⟩
  obtain ⟨rest, hfirst⟩ := hfirst
  rw [hfirst, parse_eq] at h
  obtain ⟨t', rest', bs, heq, hs, _⟩ := accepted (F := F) rfl rfl (fun x hx => typed_map hx) h
  rw [List.map_cons] at heq hs
  obtain ⟨_, _, _, hn, hbt⟩ := sentRun_start hs
  exact unfit_of_not hbt hn hr ho h1 h2 hx

/-- **C86** for one word. -/
theorem c86_one {frames : Nat} {u v : List Token} {w : Token} {e : Ers F} (hv : v ≠ [] ∨ ¬ Closed u)
    (hb : Between F frames u) (hw : ¬ Extendable ((u ++ [w]).map assignSyntax))
    (hp : (assignSyntax w).base ≠ .POINT) (hs : (assignSyntax w).base ≠ .SID) (hf : 4 * (u ++ w :: v).length ≤ frames)
    (h : parseF15 frames (Ers.new : Ers F) ⟨u ++ v, 0⟩ = .ok (true, e)) :
    ∃ e' r n, parseF15 frames (Ers.new : Ers F) ⟨u ++ w :: v, 0⟩ = .ok (false, e') ∧
      e'.elements = e.elements ∧ e'.derived = e.derived ∧ e'.errors = [r] ∧ ErrorIs (assignSyntax w) n r := by
  have hu : u ≠ [] := by
    rintro rfl
    rcases hb with ⟨t, h, _⟩ | ⟨⟨e, h, _⟩, _⟩
    · cases h
    · rw [parse_eq] at h; cases h
  have hj : inPieces [(u, w)] v = u ++ v := by unfold inPieces; simp
  have hi : interspersed [(u, w)] v = u ++ w :: v := by unfold interspersed; simp
  obtain ⟨e', h1, h2, h3, h4, h5⟩ := c86 (F := F) (frames := frames) (ps := [(u, w)]) (ts := v) (e := e)
    (by
      rw [hj]
      rcases hv with hv | hc
      · exact .inl hv
      · by_cases hv : v = []
        · rw [hv, List.append_nil]; exact .inr hc
        · exact .inl hv)
    (by
      intro k hk
      obtain rfl : k = 0 := by simpa using hk
      simpa using hb)
    (by
      intro k p hk
      obtain rfl : k = 0 := by have := (List.getElem?_eq_some_iff.1 hk).1; simpa using this
      cases hk
      simpa using hw)
    (by
      intro p hm
      obtain rfl : p = (u, w) := by simpa using hm
      exact ⟨hp, hs, fun h => absurd h hu⟩)
    (by rw [hi]; exact hf) (by rw [hj]; exact h)
  rw [hi] at h1
  obtain ⟨r, he⟩ := List.length_eq_one_iff.1 h4
  obtain ⟨n, hn⟩ := h5 0 (u, w) r rfl (by rw [he]; rfl)
  exact ⟨e', r, n, h1, h2, h3, he, hn⟩

/-! ### Texts -/

theorem extendable_same {T T' : List Token} (h : T.map (·.text) = T'.map (·.text)) (he : Extendable (T.map assignSyntax)) :
    Extendable (T'.map assignSyntax) := by
  obtain ⟨z, hz, hs⟩ := he
  have ht : ∀ S : List Token, S.map assignSyntax ++ z = typedTokens ⟨S ++ z, 0⟩ := by
    intro S
    show _ = (S ++ z).map assignSyntax
    rw [List.map_append]
    congr 1
    exact ((List.map_congr_left (g := id) hz).trans (List.map_id z)).symm
  refine ⟨z, hz, ?_⟩
  rw [ht] at hs ⊢
  have hl : T.length = T'.length := by have := congrArg List.length h; simpa using this
  obtain ⟨e, he⟩ := (c22 (F := Rat) (frames := 4 * (T ++ z).length) ⟨T ++ z, 0⟩ (Nat.le_refl _)).2 hs
  obtain ⟨e', he', _⟩ := same_words (T' := T' ++ z) he (by rw [List.map_append, List.map_append, h])
  exact c22_sound _ he'

/-- **C86** for texts: `src` is a layout of the words of `u ++ v`, `src'` one of the words of `u ++ w :: v`. -/
theorem c86_text {frames : Nat} {ws src src' : Str} {u v : List Token} {w : Token} {e : Ers F}
    (hs : Layout ws ((u ++ v).map (·.text)) src) (hs' : Layout ws ((u ++ w :: v).map (·.text)) src')
    (hv : v ≠ [] ∨ ¬ Closed u) (hb : Between F frames u) (hw : ¬ Extendable ((u ++ [w]).map assignSyntax))
    (hpt : (assignSyntax w).base ≠ .POINT) (hsd : (assignSyntax w).base ≠ .SID) (hf : 4 * (u ++ w :: v).length ≤ frames)
    (h : parseF15 frames (Ers.new : Ers F) ⟨tokenizeList ws src, 0⟩ = .ok (true, e)) :
    ∃ e' w' r n, parseF15 frames (Ers.new : Ers F) ⟨tokenizeList ws src', 0⟩ = .ok (false, e') ∧
      e'.elements.map noPlace = e.elements.map noPlace ∧ e'.derived = e.derived ∧
      (tokenizeList ws src')[u.length]? = some w' ∧ w'.text = w.text ∧
      e'.errors = [r] ∧ ErrorIs (assignSyntax w') n r := by
  have ht := c04_layout ws src _ hs
  have ht' := c04_layout ws src' _ hs'
  rw [List.map_append, List.map_cons] at ht'
  obtain ⟨u', x, hx, hu', hx'⟩ := List.map_eq_append_iff.1 ht'
  obtain ⟨w', v', rfl, hw', hv'⟩ := List.map_eq_cons_iff.1 hx'
  have hl : u'.length = u.length := by have := congrArg List.length hu'; simpa using this
  have hp := c51 (F := F) frames ⟨tokenizeList ws src, 0⟩ ⟨u' ++ v', 0⟩ (by
    show _ = (u' ++ v').map (·.text)
    rw [ht, List.map_append, List.map_append, hu', hv'])
  rw [h] at hp
  cases h1 : parseF15 frames (Ers.new : Ers F) ⟨u' ++ v', 0⟩ with
  | error x => rw [h1] at hp; exact hp.elim
  | ok q =>
    obtain ⟨b, e1⟩ := q
    rw [h1] at hp
    obtain ⟨rfl, hd, he, _⟩ := hp
    obtain ⟨e', r, n, g1, g2, g3, g4, g5⟩ := c86_one (F := F) (frames := frames) (u := u') (v := v') (w := w')
      (by
        rcases hv with hv | hc
        · left; rintro rfl; exact hv (by simpa using hv'.symm)
        · exact .inr fun h => hc (closed_same hu' h))
      (between_same hu'.symm hb) (fun hx => hw (extendable_same (by simp [hu', hw']) hx))
      (by rw [assign_base hw']; exact hpt) (by rw [assign_base hw']; exact hsd) (by
        have := congrArg List.length hv'
        simp only [List.length_append, List.length_cons, List.length_map] at this hf ⊢
        omega) h1
    refine ⟨e', w', r, n, ?_, ?_, ?_, ?_, hw', g4, g5⟩
    · rw [hx]; exact g1
    · rw [g2, noPlace_of he]
    · rw [g3, hd]
    · rw [hx, ← hl]; simp

/-! ### Which words cannot come next -/

/-- What stands last when a phase is reached. -/
def LastWordIs (p : Phase) (t : Token) : Prop :=
  match p with
  | .adep => False
  | .sid => t.base = .SID ∨ t.base = .SID_STAR
  | .point f => (t.base = .POINT ∧ f = isFixed t) ∨ t.base ∈ [BaseType.SPEED_ALTITUDE, .SPEED_ALTITUDE_ALTITUDE, .SPEED_ALTITUDE_PLUS]
  | .dct => t.base = .DCT
  | .route => t.base = .ROUTE
  | .climb => t.base = .C
  | .stay => t.base = .STAY_TIME
  | .text _ => True

theorem last_word_is {q : Phase} {u : List Token} {as : List Act} {z : Option Phase} (h : RunTo q u as z) {p : Phase} (hz : z = some p) :
    (u = [] ∧ q = p) ∨ ∃ t, u.getLast? = some t ∧ LastWordIs p t := by
  have more : ∀ (x : List Token) {ts : List Token} {q : Phase} {l : Token}, (ts = [] ∧ q = p) ∨ (∃ t, ts.getLast? = some t ∧ LastWordIs p t) →
      x.getLast? = some l → (q = p → LastWordIs p l) → ∃ t, (x ++ ts).getLast? = some t ∧ LastWordIs p t := by
    rintro x ts q l (⟨rfl, hq⟩ | ⟨t, h, hb⟩) hx hl
    · exact ⟨l, by rw [List.append_nil]; exact hx, hl hq⟩
    · exact ⟨t, by rw [List.getLast?_append, h]; rfl, hb⟩
  have mem1 : ∀ {b : BaseType}, b = .SPEED_ALTITUDE → b ∈ [BaseType.SPEED_ALTITUDE, .SPEED_ALTITUDE_ALTITUDE, .SPEED_ALTITUDE_PLUS] := by
    rintro _ rfl; decide
  have mem2 : ∀ {b : BaseType}, b = .SPEED_ALTITUDE_ALTITUDE →
      b ∈ [BaseType.SPEED_ALTITUDE, .SPEED_ALTITUDE_ALTITUDE, .SPEED_ALTITUDE_PLUS] := by
    rintro _ rfl; decide
  have mem3 : ∀ {b : BaseType}, b = .SPEED_ALTITUDE_PLUS →
      b ∈ [BaseType.SPEED_ALTITUDE, .SPEED_ALTITUDE_ALTITUDE, .SPEED_ALTITUDE_PLUS] := by
    rintro _ rfl; decide
  induction h with
  | here q => cases hz; exact .inl ⟨rfl, rfl⟩
  | truncate | star => cases hz
  | sid hb _ ih => exact .inr (more [_] (ih hz) rfl (by rintro rfl; exact hb))
  | dct _ hb _ ih | route _ hb _ ih | climb _ hb _ ih => exact .inr (more [_] (ih hz) rfl (by rintro rfl; exact hb))
  | break_ _ _ _ ih | word _ _ _ ih => exact .inr (more [_] (ih hz) rfl (by rintro rfl; trivial))
  | point _ hb _ _ ih => exact .inr (more [_] (ih hz) rfl (by rintro rfl; exact .inl ⟨hb, rfl⟩))
  | cruise _ _ _ _ _ hl _ ih =>
    refine .inr (more [_, _, _, _, _] (ih hz) rfl (by
      rintro rfl
      right
      rcases hl with ⟨hl, _⟩ | ⟨hl, _⟩
      · exact mem2 hl
      · exact mem3 hl))
  | stay _ _ _ hm _ ih => exact .inr (more [_, _, _] (ih hz) rfl (by rintro rfl; exact hm))
  | level _ hb _ _ ih => exact .inr (more [_, _] (ih hz) rfl (by rintro rfl; exact .inr (mem1 hb)))
  | vfr _ _ _ ih => exact .inr (more [_, _] (ih hz) rfl (by rintro rfl; trivial))
  | resume _ _ _ hp _ _ ih => exact .inr (more [_, _] (ih hz) rfl (by rintro rfl; exact .inl ⟨hp, rfl⟩))
  | resumeIfr _ _ _ _ _ _ hl _ _ ih => exact .inr (more [_, _, _, _] (ih hz) rfl (by rintro rfl; exact .inr (mem1 hl)))
  | resumeVfr _ _ _ _ _ _ _ ih => exact .inr (more [_, _, _, _] (ih hz) rfl (by rintro rfl; trivial))

theorem nil_end {q : Phase} {u : List Token} {as : List Act} {z : Option Phase} (h : RunTo q u as z) (hu : u = []) : z = some q := by
  cases h <;> first | rfl | cases hu

/-- No acceptable field 15 begins with a word that the phase does not allow. -/
theorem not_extendable {t : Token} {u : List Token} {w : Token} {as : List Act} {y : Option Phase}
    (hr : RunTo (startPhase (assignSyntax t)) (u.map assignSyntax) as y) (ho : Open y)
    (hw : ∀ z, y = some z → z.allows (assignSyntax w) = false ∧ (∀ f, z = .point f → (assignSyntax w).base ≠ .SLASH)) :
    ¬ Extendable ((t :: u ++ [w]).map assignSyntax) := by
  rintro ⟨v, hv, hs⟩
  have heq : (t :: u ++ [w]).map assignSyntax ++ v = assignSyntax t :: (u.map assignSyntax ++ assignSyntax w :: v) := by simp
  rw [heq] at hs
  have hT : ∀ x ∈ assignSyntax t :: (u.map assignSyntax ++ assignSyntax w :: v), Typed x := by
    intro x hx
    simp only [List.mem_cons, List.mem_append, List.mem_map] at hx
    rcases hx with rfl | ⟨x, _, rfl⟩ | rfl | hx
    · exact typed_assign _
    · exact typed_assign _
    · exact typed_assign _
    · exact hv x hx
  obtain ⟨as', hs⟩ := (sentence_iff hT).1 hs
  obtain ⟨bs, _, hrun, _, _⟩ := sentRun_start hs
  obtain ⟨z', hto⟩ := hrun.to
  obtain ⟨cs, _, hrest⟩ := hr.extend ho hto rfl
  cases y with
  | none => obtain ⟨h, _⟩ := hrest; cases h
  | some z =>
    obtain ⟨h1, h2⟩ := hw z rfl
    rcases starts ho hrest with ⟨h, _⟩ | ⟨f, _, _, hf, hb, _⟩
    · rw [h1] at h; cases h
    · exact h2 f hf hb

/-- **C86** Examples of words that cannot come next: behind DCT and behind an ATS route anything but `T`, `C` and a point; behind a SID anything but `T`, a point, an
ATS route and a STAR; behind a stay another stay and a `/`; an ATS route behind a point given by coordinates or bearing and distance; behind the initial SPEED/LEVEL
an ATS route, a stay, a cruise climb, a change of rules and a `/`. -/
theorem c86_which {frames : Nat} {u : List Token} {o w : Token} (hb : Between F frames u) (ho : u.getLast? = some o) :
    ((assignSyntax o).base ∈ [BaseType.DCT, .ROUTE] → (assignSyntax w).base ∉ [BaseType.TRUNCATE, .C, .POINT] →
      ¬ Extendable ((u ++ [w]).map assignSyntax)) ∧
    ((assignSyntax o).base ∈ [BaseType.SID, .SID_STAR] →
      (assignSyntax w).base ∉ [BaseType.TRUNCATE, .POINT, .ROUTE, .STAR, .SID_STAR] → ¬ Extendable ((u ++ [w]).map assignSyntax)) ∧
    ((assignSyntax o).base = .STAY_TIME → (assignSyntax w).base ∈ [BaseType.STAY, .SLASH] → ¬ Extendable ((u ++ [w]).map assignSyntax)) ∧
    ((assignSyntax o).base = .POINT → isFixed (assignSyntax o) = true → (assignSyntax w).base = .ROUTE →
      ¬ Extendable ((u ++ [w]).map assignSyntax)) ∧
    (u.length = 1 → (assignSyntax w).base ∈ [BaseType.ROUTE, .STAY, .C, .BREAK_START, .SLASH] → ¬ Extendable ((u ++ [w]).map assignSyntax)) := by
  cases u with
  | nil => cases ho
  | cons t u =>
  obtain ⟨as, y, hr, hy⟩ := between_run hb
  have hl : ∀ p, y = some p → (u = [] ∧ startPhase (assignSyntax t) = p) ∨ LastWordIs p (assignSyntax o) := by
    intro p hp
    rcases last_word_is hr hp with ⟨h1, h2⟩ | ⟨x, hx, he⟩
    · exact .inl ⟨by simpa using h1, h2⟩
    · right
      rw [List.getLast?_map] at hx
      cases hu : u.getLast? with
      | none => rw [hu] at hx; cases hx
      | some x' =>
        rw [hu] at hx
        cases hx
        rw [List.getLast?_cons, hu] at ho
        cases ho
        exact he
  -- alone, the first word is a SPEED/LEVEL
  have h1 : u = [] → (assignSyntax o).base = .SPEED_ALTITUDE ∧ startPhase (assignSyntax t) = .adep := by
    rintro rfl
    cases ho
    rcases hb with ⟨t', h, hb⟩ | ⟨⟨e, h, hrl⟩, hc⟩
    · cases h
      exact ⟨hb, by unfold startPhase; rw [if_neg (by rw [hb]; decide)]⟩
    · have : startPhase (assignSyntax t) = .adep := by
        rw [nil_end hr rfl] at hy
        unfold startPhase at hy ⊢
        split at hy
        · exact hy.elim
        · rw [if_neg (by assumption)]
      refine ⟨?_, this⟩
      rw [parse_eq] at h
      obtain ⟨t', rest, bs, heq, hs, _⟩ := accepted (F := F) rfl rfl (fun x hx => typed_map hx) h
      rw [List.map_cons] at heq hs
      obtain ⟨_, _, _, _, hbt⟩ := sentRun_start hs
      rcases hbt with hbt | hbt
      · unfold startPhase at this; rw [if_pos hbt] at this; cases this
      · exact hbt
  refine ⟨?_, ?_, ?_, ?_, ?_⟩
  all_goals intro a
  · intro b
    refine not_extendable hr hy ?_
    intro z hz
    rcases hl z hz with ⟨h, _⟩ | h
    · rw [(h1 h).1] at a; exact absurd a (by decide)
    · subst hz
      simp only [List.mem_cons, List.not_mem_nil, or_false] at a
      rcases a with a | a <;> cases z <;> simp_all [LastWordIs, Phase.allows, Open]
  · intro b
    refine not_extendable hr hy ?_
    intro z hz
    rcases hl z hz with ⟨h, _⟩ | h
    · rw [(h1 h).1] at a; exact absurd a (by decide)
    · subst hz
      simp only [List.mem_cons, List.not_mem_nil, or_false] at a
      rcases a with a | a <;> cases z <;> simp_all [LastWordIs, Phase.allows, Open]
  · intro b
    refine not_extendable hr hy ?_
    intro z hz
    rcases hl z hz with ⟨h, _⟩ | h
    · rw [(h1 h).1] at a; exact absurd a (by decide)
    · subst hz
      simp only [List.mem_cons, List.not_mem_nil, or_false] at b
      rcases b with b | b <;> cases z <;> simp_all [LastWordIs, Phase.allows, Open]
  · intro b c
    refine not_extendable hr hy ?_
    intro z hz
    rcases hl z hz with ⟨h, _⟩ | h
    · rw [(h1 h).1] at a; exact absurd a (by decide)
    · subst hz
      cases z <;> simp_all [LastWordIs, Phase.allows, Open]
  · intro b
    have hu : u = [] := by simpa using a
    refine not_extendable hr hy ?_
    intro z hz
    subst hu
    rw [nil_end hr rfl, (h1 rfl).2] at hz
    cases hz
    refine ⟨?_, fun f h => by cases h⟩
    simp only [List.mem_cons, List.not_mem_nil, or_false] at b
    rcases b with b | b | b | b | b <;> simp [Phase.allows, b]

/-! ### Concrete cases -/

@[irreducible] def secondDct : Token := { text := py! "DCT" , start := 0, stop := 3, base := .UNKNOWN, sub := .UNKNOWN }

/-- A second DCT behind a DCT. -/
example : ∃ e' r n, parseF15 1000 (Ers.new : Ers Rat) ⟨pieceA ++ secondDct :: pieceB, 0⟩ = .ok (false, e') ∧
    e'.elements.length = 5 ∧ e'.errors = [r] ∧ ErrorIs (assignSyntax secondDct) n r := by
  obtain ⟨h1, _⟩ := example_between
  have h3 : check (py! "N0450F350 LNZ DCT PNT/N0460F360") (fun b e => b && e.elements.length = 5) = true := by decide +kernel
  obtain ⟨b, e, h4, h5⟩ := check_ok h3
  simp only [Bool.and_eq_true, decide_eq_true_eq] at h5
  obtain ⟨rfl, h5⟩ := h5
  obtain ⟨e1, h6, h7⟩ := same_words (T' := pieceA ++ pieceB) h4 (by decide +kernel)
  have hd : (assignSyntax secondDct).base = .DCT := by decide +kernel
  have ho : ∃ o, pieceA.getLast? = some o ∧ (assignSyntax o).base = .DCT := by
    have : (pieceA.getLast?.map fun t => (assignSyntax t).base) = some .DCT := by decide +kernel
    cases hp : pieceA.getLast? with
    | none => rw [hp] at this; cases this
    | some o => rw [hp] at this; exact ⟨o, rfl, Option.some.inj this⟩
  obtain ⟨o, ho, hob⟩ := ho
  have hw : ¬ Extendable ((pieceA ++ [secondDct]).map assignSyntax) :=
    (c86_which h1 ho).1 (by rw [hob]; decide) (by rw [hd]; decide)
  obtain ⟨e', r, n, g1, g2, _, g4, g5⟩ := c86_one (F := Rat) (frames := 1000) (.inl (by decide +kernel)) h1 hw (by rw [hd]; decide)
    (by rw [hd]; decide) (by decide +kernel) h6
  refine ⟨e', r, n, g1, ?_, g4, g5⟩
  rw [g2, ← h5]
  have := congrArg List.length h7
  simpa using this.symm

/-- More words that cannot come next, each inserted into an accepted field 15: one error, and as many elements. -/
example :
    check (py! "N0450F350 LNZ UL1 UL2 PNT") (fun b e => !b && e.errors.length = 1 && e.elements.length = 5) = true ∧
    check (py! "N0450F350 LNZ DCT VFR PNT") (fun b e => !b && e.errors.length = 1 && e.elements.length = 5) = true ∧
    check (py! "N0450F350 C LNZ DCT PNT") (fun b e => !b && e.errors.length = 1 && e.elements.length = 5) = true ∧
    check (py! "N0450F350 51N010E UL1 PNT") (fun b e => !b && e.errors.length = 1 && e.elements.length = 4) = true ∧
    check (py! "N0450F350 LNZ DCT / PNT") (fun b e => !b && e.errors.length = 1 && e.elements.length = 5) = true := by
  decide +kernel

/-- Why points and SIDs are excluded, and a second word that is of a known form: each costs an element more, or more than one error. -/
theorem c86_limits :
    check (py! "N0450F350 LNZ DCT PNT") (fun b e => b && e.elements.length = 5) = true ∧
    check (py! "N0450F350 LNZ SID DCT PNT") (fun b e => !b && e.elements.length = 6) = true ∧
    check (py! "N0450F350 LNZ DCT DCT DCT PNT") (fun b e => !b && e.elements.length = 6) = true ∧
    check (py! "N0450F350 LNZ UL1 PNT") (fun b e => b && e.elements.length = 5) = true ∧
    check (py! "N0450F350 LNZ UL1 51N010E PNT") (fun b e => !b && e.elements.length ≥ 6) = true := by
  decide +kernel

end F15
