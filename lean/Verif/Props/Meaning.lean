import Verif.Lemmas.Whereabouts
import Verif.Lemmas.Cause
import Verif.Props.Climb
import Verif.Props.Positions
import Verif.Props.Accepted
import Verif.Props.FreeText
/-!
# C68: the result of an accepted field 15 is what the rules say, in every attribute
-/

namespace F15
open Spec

set_option linter.unusedSectionVars false
variable {F : Type} [PyFloat F]

/-! ### The parser follows the rules -/

theorem level_si {lv : Str} (h : lv ≠ []) : levelSi F lv = levelMetres F lv := by
  cases lv with
  | nil => exact absurd rfl h
  | cons u d =>
    unfold levelSi altitudeToSi levelMetres qty
    have h1 : ∀ c : Char, ((u :: d).take 1 = [c]) = (u = c) := by intro c; simp
    simp only [h1, List.drop_succ_cons, List.drop_zero, Constants.feetToMeters]
    by_cases h2 : u = 'F' ∨ u = 'A'
    · rw [if_pos h2.symm, if_pos h2]; push_cast; rfl
    · rw [if_neg (fun h => h2 h.symm), if_neg h2]
      push_cast
      split <;> rfl

theorem speed_si {sp : Str} (h : Speed sp) (alt : Int) : speedSi F sp alt = speedMetres F alt sp := by
  have : ∃ u d, sp = u :: d ∧ (u = 'M' ∨ u = 'K' ∨ u = 'N') := by
    rcases h with ⟨u, d, hu, rfl, _⟩ | ⟨u, d, hu, rfl, _⟩
    · exact ⟨u, d, rfl, .inl (by simpa using hu)⟩
    · exact ⟨u, d, rfl, .inr (by simpa using hu)⟩
  obtain ⟨u, d, rfl, hu⟩ := this
  unfold speedSi speedToSi speedMetres qty
  have h1 : ∀ c : Char, ((u :: d).take 1 = [c]) = (u = c) := by intro c; simp
  simp only [h1, List.drop_succ_cons, List.drop_zero]
  rcases hu with rfl | rfl | rfl <;> rfl

theorem level_ne {lv : Str} (h : Level lv) : lv ≠ [] := by
  rintro rfl
  rcases h with ⟨_, _, _, h, _⟩ | ⟨_, _, _, h, _⟩ <;> cases h

theorem speed_ne {sp : Str} (h : Speed sp) : sp ≠ [] := by
  rintro rfl
  rcases h with ⟨_, _, _, h, _⟩ | ⟨_, _, _, h, _⟩ <;> cases h

theorem si_of {frames : Nat} {tokens : Tokens} {b : Bool} {e : Ers F} (h : parseF15 frames Ers.new tokens = .ok (b, e))
    {r : Record F} (hr : r ∈ e.elements) (hs : r.speed ≠ []) :
    r.altitudeSi = levelMetres F r.altitude ∧ r.speedSi = speedMetres F r.altitudeSi r.speed := by
  rcases ((parse_cause h).2.2 r hr).1 with hq | ⟨sp, lv, hsp, hl, hq⟩
  · simp only [quad, Prod.mk.injEq] at hq
    exact absurd hq.1 hs
  · simp only [quad, quadOf, Prod.mk.injEq] at hq
    obtain ⟨h1, h2, h3, h4⟩ := hq
    rw [h1, h2, h3, h4, level_si (level_ne hl), speed_si hsp]
    exact ⟨rfl, rfl⟩

/-- The last stay in a list. -/
theorem last_stay (l : List (Token × Role)) : (∀ x ∈ l, isStayTime x = false) ∨
    ∃ a m b, l = a ++ m :: b ∧ isStayTime m = true ∧ ∀ x ∈ b, isStayTime x = false := by
  induction l with
  | nil => exact .inl fun x hx => by cases hx
  | cons x l ih =>
    rcases ih with h | ⟨a, m, b, rfl, h1, h2⟩
    · cases hx : isStayTime x with
      | true => exact .inr ⟨[], x, l, rfl, hx, h⟩
      | false =>
        refine .inl fun y hy => ?_
        rcases List.mem_cons.1 hy with rfl | hy
        · exact hx
        · exact h y hy
    · exact .inr ⟨x :: a, m, b, rfl, h1, h2⟩

theorem not_stay {x : Token × Role} (h : isStayTime x = false) : ¬ (x.2 = .note ∧ x.1.base = .STAY_TIME) := by
  rintro ⟨a, b⟩; simp [isStayTime, a, b] at h

theorem stay_of (r : Record F) (h0 : r.stayTime = 0) {l : List (Token × Role)} (hl : ∀ m ∈ l, m.2.isElement = false)
    (hT : ∀ m ∈ l, Typed m.1) : StayOf l (cur r l).stayTime := by
  rcases last_stay l with h | ⟨a, ⟨t, o⟩, b, rfl, h1, h2⟩
  · left
    rw [cur_stay r (fun m hm => ⟨hl m hm, h m hm⟩)]
    exact ⟨h0, fun x hx => not_stay (h x hx)⟩
  · right
    have ho : o = .note ∧ t.base = .STAY_TIME := by simpa [isStayTime] using h1
    obtain ⟨rfl, hb⟩ := ho
    refine ⟨a, t, b, rfl, hb, ?_, fun x hx => not_stay (h2 x hx)⟩
    rw [cur_append, cur_cons, cur_stay _ (fun m hm => ⟨hl m (by simp [hm]), h2 m hm⟩), note_stay _ rfl, if_pos ⟨rfl, hb⟩]
    exact stay_minutes (hT (t, .note) (by simp)) hb

theorem tweak_error {r r' : Record F} (h : Tweak r r') : r'.errorText = r.errorText := by rw [h]

theorem final_error (r : Record F) (after : List (Token × Role)) : (finalRec r after).errorText = r.errorText := by
  rcases final_settle r after with h | ⟨v, h⟩ <;> rw [h]; rfl

theorem step_error (r : Record F) {m : Token × Role} (hm : m.2.isElement = true) : (stepRec r m).errorText = [] := by
  obtain ⟨t, o⟩ := m
  cases o with
  | word | note => cases hm
  | sid | star | slot => rfl
  | head =>
    unfold stepRec
    dsimp only
    split
    · rfl
    · rfl
    · unfold brkRules; split <;> rfl
    · rfl
    · rfl

theorem Well.proc_base {p : Spot} {l : List (Token × Role)} (h : Well p l) :
    ∀ m ∈ l, m.2 = .sid ∨ m.2 = .star → m.1.base ≠ .POINT := by
  induction h with
  | nil => intro m hm; cases hm
  | word _ ih | note _ _ _ _ ih | slot _ _ ih | slash _ _ ih | levels _ _ ih | point _ _ _ ih | plain _ _ _ ih | brk _ _ _ ih =>
    intro m hm hh
    rcases List.mem_cons.1 hm with rfl | hm
    · rcases hh with hh | hh <;> cases hh
    · exact ih m hm hh
  | sid hb _ ih =>
    intro m hm hh
    rcases List.mem_cons.1 hm with rfl | hm
    · rcases hb with h | h <;> simp [h]
    · exact ih m hm hh
  | star _ hb =>
    intro m hm hh
    simp only [List.mem_singleton] at hm; subst hm
    rcases hb with h | h <;> simp [h]

theorem WellAll.proc_base {l : List (Token × Role)} (h : WellAll l) : ∀ m ∈ l, m.2 = .sid ∨ m.2 = .star → m.1.base ≠ .POINT := by
  cases h with
  | ifr hb _ h | vfr hb h =>
    intro m hm hn
    rcases List.mem_cons.1 hm with rfl | hm
    · rcases hn with hn | hn <;> cases hn
    · exact h.proc_base m hm hn

theorem ll_point {t : Token} (h : Typed t) (hl : llSub t.sub = true) : t.base = .POINT := by
  rcases typed_pair h with ⟨_, h2⟩ | ⟨_, h2⟩ | ⟨w, hw, h1, h2⟩
  · rw [h2] at hl; cases hl
  · rw [h2] at hl; cases hl
  · have hk : (table.all fun r => !llSub r.sub || decide (r.base = .POINT)) = true := by decide +kernel
    have := List.all_eq_true.1 hk w hw
    rw [h2] at hl
    rw [h1]
    simpa [hl] using this

theorem llSub_iff (s : SubType) : llSub s = true ↔ isLatLong s := by
  unfold llSub isLatLong
  simp

theorem overlooked_iff {before after : List (Token × Role)} :
    (ifrWord before.getLast? && nextVfr after) = true ↔ Overlooked before after := by
  rw [Bool.and_eq_true]
  constructor
  · rintro ⟨h1, h2⟩
    constructor
    · cases hb : before.getLast? with
      | none => rw [hb] at h1; cases h1
      | some m =>
        obtain ⟨w, o⟩ := m
        obtain ⟨b, hb'⟩ := List.getLast?_eq_some_iff.1 hb
        rw [hb] at h1
        cases o <;> first | (cases h1; done) | skip
        exact ⟨b, w, hb', by simpa [ifrWord] using h1⟩
    · match after, h2 with
      | s :: l :: rest, h2 => exact ⟨s, l, rest, rfl, by simpa [nextVfr] using h2⟩
  · rintro ⟨⟨b, w, rfl, hw⟩, s, l, rest, rfl, h1, h2⟩
    simp [ifrWord, nextVfr, hw, h1, h2]

theorem here_true {r : Record F} (h : here r = at_ true) : r.latLongValid = true := by
  unfold here at h
  split at h
  · assumption
  · simp [at_] at h

theorem here_false {r : Record F} (h : here r = at_ false) : r.latLongValid = false ∧ r.latitude = fzero ∧ r.longitude = fzero := by
  unfold here at h
  split at h
  · simp [at_] at h
  · rename_i hv
    simp only [at_, Prod.mk.injEq] at h
    exact ⟨by simpa using hv, h.2.1, h.2.2⟩

theorem gives_ne {t : Token} {s l : Str} (h : Gives t s l) : s ≠ [] := speed_ne h.1

/-- The point of a cruise climb. -/
theorem climb_to {tokens : Tokens} {e : Ers F} (h : Lawful tokens e)
    {before after : List (Token × Role)} {p : Token} (hr : roles (typedTokens tokens) = before ++ (p, .slot) :: after) :
    ∃ r, e.elements[elementCount before + 1]? = some r ∧ ClimbTo after r.cruiseTo r.cruiseToSi F := by
  have ht := told h
  obtain ⟨s, l, rest, rfl, hs, hl, hw⟩ := slot_next ht.well hr
  obtain ⟨r, h1, hc, hcs, _⟩ := elem_cruise ht hr rfl
  have hall := ht.allTyped
  rw [hr] at hall
  have hTs : Typed s := hall (s, .note) (by simp)
  have hTl : Typed l := hall (l, .note) (by simp)
  have hab : about ((s, Role.note) :: (l, .note) :: rest) = (s, .note) :: (l, .note) :: about rest :=
    about_append (b := [(s, .note), (l, .note)]) (by simp [Role.isElement])
  have hopen := about_open hw (.inr rfl)
  have hcur := cur_cruise (stepRec (stepRec (stepRec (cur (F := F) newAdep before) (p, .slot)) (s, .note)) (l, .note))
    (l := about rest) (fun m hm _ => (hopen m hm).2) (fun m hm => about_not hm)
  rw [hab, cur_cons, cur_cons] at hc hcs
  rw [hcur.1] at hc
  rw [hcur.2] at hcs
  have hss : ∀ q : Record F, stepRec q (s, .note) = q := by intro q; simp [stepRec, hs]
  refine ⟨r, h1, s, l, rest, rfl, ?_, ?_⟩
  · exact (c10_keywords s.text).1.1 (by rw [typed_types hTs (by rw [hs]; decide), hs])
  · rcases hl with ⟨hb, hbad⟩ | hb
    · right
      obtain ⟨f1, f2, f3, _, f4⟩ := levels_facts hTl hb hbad
      have f4' : l.text = spOf l.text ++ lv1Of l.text ++ tailOf l.text := by rw [List.append_assoc]; exact f4
      have hx := (level_split f4' f1 f2).2.2
      have hst : ∀ q : Record F, stepRec q (l, .note) = (Act.levels l).tweak q := by intro q; simp [stepRec, hb]
      rw [hst] at hc hcs
      have hlen : (UnitDigits ['K', 'N'] 4 (spOf l.text) ∧ UnitDigits ['F', 'A'] 3 (lv1Of l.text)) ↔
          ((spOf l.text).length = 5 ∧ (lv1Of l.text).length = 4) := by
        constructor
        · rintro ⟨⟨u, d, _, h1, h2, _⟩, ⟨u', d', _, h3, h4, _⟩⟩
          rw [h1, h3]; simp [h2, h4]
        · rintro ⟨a1, a2⟩
          constructor
          · rcases f1 with ⟨u, d, _, h1, h2, _⟩ | f1
            · rw [h1] at a1; simp [h2] at a1
            · exact f1
          · rcases f2 with f2 | ⟨u, d, _, h1, h2, _⟩
            · exact f2
            · rw [h1] at a2; simp [h2] at a2
      have htxt : r.cruiseTo = lv2Of l.text := hc
      have hsi : r.cruiseToSi = levelSi F (lv2Of l.text) := hcs
      have hlv : lv2Of l.text = if (spOf l.text).length = 5 ∧ (lv1Of l.text).length = 4 then tailOf l.text else (tailOf l.text).drop 1 := by
        unfold lv2Of
        have : (ccExact l.text = true) = ((spOf l.text).length = 5 ∧ (lv1Of l.text).length = 4) := propext (hx.trans hlen)
        simp only [this]
      have hne : lv2Of l.text ≠ [] := by
        have : 4 ≤ (tailOf l.text).length := by
          rcases f3 with ⟨u, d, _, h1, h2, _⟩ | ⟨u, d, _, h1, h2, _⟩ <;> rw [h1] <;> simp [h2]
        rw [hlv]
        split
        · intro h; rw [h] at this; simp at this
        · intro h
          have : ((tailOf l.text).drop 1).length = 0 := by rw [h]; rfl
          rw [List.length_drop] at this; omega
      exact ⟨_, _, _, f1, f2, f3, f4', htxt.trans hlv, by rw [hsi, htxt, level_si hne]⟩
    · left
      obtain ⟨f1, f2, f3, f4⟩ := plus_facts hTl hb
      have hst : ∀ q : Record F, stepRec q (l, .note) = (Act.plus l).tweak q := by intro q; simp [stepRec, hb]
      rw [hst] at hc hcs
      refine ⟨_, _, f1, f2, ?_, hc, ?_⟩
      · rw [List.append_assoc]; rw [f3] at f4; exact f4
      · have hcs' : r.cruiseToSi = (stepRec (stepRec (cur (F := F) newAdep before) (p, .slot)) (s, .note)).cruiseToSi := hcs
        rw [hcs', hss]
        exact (step_element _ rfl).2.2.2.2.2.2.2.2

/-- The numbers do not matter. -/
theorem c68_lawful {tokens : Tokens} {e : Ers F} (h : Lawful tokens e)
    (hne : ∀ t ∈ tokens.toks, t.text ≠ []) : Meaning (typedTokens tokens) e.elements := by
  have ht := told h
  obtain ⟨frames, b, hparse⟩ := h.1
  obtain ⟨htext, htext0, _⟩ := c39_lawful h hne
  obtain ⟨hrules, hrules0, _⟩ := c25_accepted_lawful h
  obtain ⟨hcl, hcl0, _⟩ := c37_others_lawful h
  obtain ⟨hpl0, hpl⟩ := told_here h
  refine ⟨ht.len, ?_, ?_, ?_, fun before r following hr => c31 hparse hr⟩
  · obtain ⟨t, r, h1, h2, h3⟩ := ht.adep
    obtain ⟨r1, k1, k2, _⟩ := htext0
    obtain ⟨t2, r2, k3, k4, k5⟩ := hrules0
    obtain ⟨r3, k6, k7⟩ := hcl0
    obtain ⟨r4, k8, k9⟩ := hpl0
    obtain ⟨r5, m5, k10, k11, k12⟩ := c26_lawful h (before := []) (after := roles (typedTokens tokens)) rfl
    have k10' : e.elements[0]? = some r5 := k10
    rw [h2] at k1 k4 k6 k8 k10'
    cases k1; cases k4; cases k6; cases k8; cases k10'
    have hr : r ∈ e.elements := List.mem_of_getElem? h2
    have hnot : ∀ m ∈ about (roles (typedTokens tokens)), m.2.isElement = false := fun m hm => about_not hm
    have hT : ∀ m ∈ about (roles (typedTokens tokens)), Typed m.1 := fun m hm =>
      ht.allTyped m ((List.takeWhile_sublist _).subset hm)
    have hfin := final_fields (cur (F := F) newAdep (about (roles (typedTokens tokens)))) (roles (typedTokens tokens))
    have herr := final_error (cur (F := F) newAdep (about (roles (typedTokens tokens)))) (roles (typedTokens tokens))
    have htw := cur_tweak (newAdep (F := F)) hnot
    have hsf : ∀ x : Record F, ((if t.base = .SPEED_VFR then toVfr else id) x).name = x.name ∧
        ((if t.base = .SPEED_VFR then toVfr else id) x).start = x.start ∧ ((if t.base = .SPEED_VFR then toVfr else id) x).stop = x.stop ∧
        ((if t.base = .SPEED_VFR then toVfr else id) x).base = x.base ∧ ((if t.base = .SPEED_VFR then toVfr else id) x).sub = x.sub ∧
        ((if t.base = .SPEED_VFR then toVfr else id) x).stayTime = x.stayTime ∧
        ((if t.base = .SPEED_VFR then toVfr else id) x).errorText = x.errorText := by
      intro x; split <;> exact ⟨rfl, rfl, rfl, rfl, rfl, rfl, rfl⟩
    have hsf := hsf (finalRec (cur newAdep (about (roles (typedTokens tokens)))) (roles (typedTokens tokens)))
    rw [← h3] at hsf
    obtain ⟨s1, s2, s3, s4, s5, s6, s7⟩ := hsf
    obtain ⟨f1, f2, f3, f4, f5, _, _, f6, _⟩ := hfin
    obtain ⟨w1, w2, w3, w4, w5⟩ := htw.fields
    refine ⟨r, h2, ⟨⟨?_, ?_, ?_, ?_, ?_⟩, ⟨⟨m5, k11, k12⟩, si_of hparse hr (gives_ne k12), ?_, ?_⟩, ?_, k2, k7, here_false k9⟩⟩
    · exact s1.trans (f1.trans w1)
    · exact s2.trans (f2.trans w2)
    · exact s3.trans (f3.trans w3)
    · exact s4.trans (f4.trans w4)
    · exact s5.trans (f5.trans w5)
    · have : r.stayTime = (cur (newAdep (F := F)) (about (roles (typedTokens tokens)))).stayTime := s6.trans f6
      rw [this]
      exact stay_of _ rfl hnot hT
    · exact s7.trans (herr.trans (tweak_error htw))
    · rw [k5, k3]
      simp
  · intro before m after hr he
    obtain ⟨r, h1, hname⟩ := (c46_lawful h).2 before m after hr he
    obtain ⟨r1, h2, hru⟩ := hrules before m after hr he
    obtain ⟨r2, h3, ht1, ht2⟩ := htext before m after hr he
    obtain ⟨r3, h4, hpos⟩ := hpl before m after hr he
    obtain ⟨r4, h5, h6⟩ := ht.elem before m after hr he
    have hr' : roles (typedTokens tokens) = (before ++ [m]) ++ after := by simp [hr]
    obtain ⟨r5, c, h7, h8, h9⟩ := c26_lawful h hr'
    have hcn : elementCount (before ++ [m]) = elementCount before + 1 := by
      rw [count_append, count_cons_el _ he]; rfl
    rw [hcn] at h7
    rw [h1] at h2 h3 h4 h5 h7
    cases h2; cases h3; cases h4; cases h5; cases h7
    have hmem : r ∈ e.elements := List.mem_of_getElem? h1
    have hT : ∀ x ∈ about after, Typed x.1 := fun x hx =>
      ht.allTyped x (by rw [hr]; simp [(List.takeWhile_sublist _).subset hx])
    have hnot : ∀ x ∈ about after, x.2.isElement = false := fun x hx => about_not hx
    have hfin := (final_fields (cur (F := F) newAdep (before ++ m :: about after)) after).2.2.2.2.2.2.2.1
    have herr := final_error (cur (F := F) newAdep (before ++ m :: about after)) after
    rw [← h6, cur_append, cur_cons] at hfin herr
    have hll : isLatLong m.1.sub → m.2 = .slot ∨ (m.2 = .head ∧ m.1.base = .POINT) := by
      intro hl
      have hb := ll_point (ht.allTyped m (by rw [hr]; simp)) ((llSub_iff _).2 hl)
      have hp := ht.well.proc_base m (by rw [hr]; simp)
      cases ho : m.2 with
      | head => exact .inr ⟨rfl, hb⟩
      | slot => exact .inl rfl
      | sid => exact absurd hb (hp (.inl ho))
      | star => exact absurd hb (hp (.inr ho))
      | word | note => rw [ho] at he; cases he
    refine ⟨r, h1, ⟨hname, ⟨⟨c, h8, h9⟩, si_of hparse hmem (gives_ne h9), ?_, ?_⟩, hru, ?_, ?_, ?_, ?_, ?_⟩⟩
    · have : r.stayTime = _ := hfin
      rw [this]
      exact stay_of _ (step_element _ he).2.2.2.2.2.2.1 hnot hT
    · exact herr.trans ((tweak_error (cur_tweak _ hnot)).trans (step_error _ he))
    · split
      · rename_i hs; exact (ht1 hs).1
      · rename_i hs; exact (ht2 (by simpa using hs)).1
    · intro hs
      obtain ⟨t, o⟩ := m
      cases (show o = .slot from hs)
      obtain ⟨r6, h10, h11⟩ := climb_to h hr
      rw [h1] at h10; cases h10
      exact h11
    · intro hs
      obtain ⟨r6, h10, h11⟩ := hcl before m after hr he hs
      rw [h1] at h10; cases h10
      exact h11
    · intro hl ho
      have hp : placed before.getLast? m after = true := by
        have hno : (ifrWord before.getLast? && nextVfr after) = false := by
          cases hx : (ifrWord before.getLast? && nextVfr after) with
          | false => rfl
          | true => exact absurd (overlooked_iff.1 hx) ho
        rw [placed_is (hll hl) (Bool.and_eq_false_iff.1 hno)]
        exact (llSub_iff _).2 hl
      rw [hp] at hpos
      exact ⟨here_true hpos, c27 hparse hmem (here_true hpos)⟩
    · intro hl
      have hp : placed before.getLast? m after = false := by
        unfold placed
        rcases hl with hl | hl
        · have : llSub m.1.sub = false := by
            cases hx : llSub m.1.sub with
            | false => rfl
            | true => exact absurd ((llSub_iff _).1 hx) hl
          rw [this]; simp
        · rw [overlooked_iff.2 hl]; simp
      rw [hp] at hpos
      exact here_false hpos
  · obtain ⟨r, l, h1, h2, h3⟩ := ht.ades
    exact ⟨l, h2, by rw [h1, h3]; rfl⟩

/-- **C68** The elements of an accepted field 15 are what the rules of `Spec.Meaning` say: the departure aerodrome, one element for
each token that stands for one, in order, and the destination aerodrome, each with the name, indices and types of its token, the speed
and level given last before its end, their SI values, the flight rules, the free text, the stay, the cruise-climb level, the position,
the bearing and distance, and no error text. `c68_only` says that these rules leave nothing open. -/
theorem c68 {frames : Nat} {tokens : Tokens} {e : Ers F} (h : parseF15 frames Ers.new tokens = .ok (true, e))
    (hne : ∀ t ∈ tokens.toks, t.text ≠ []) : Meaning (typedTokens tokens) e.elements :=
  c68_lawful (lawful h) hne

/-! ### The rules leave nothing open -/

theorem speed_eq {a a' x x' : Str} (h : Speed a) (h' : Speed a') (he : a ++ x = a' ++ x') : a = a' ∧ x = x' := by
  have h1 := speed_split (s := a ++ x) rfl h
  have h2 := speed_split he h'
  exact ⟨h1.1.symm.trans h2.1, h1.2.symm.trans h2.2⟩

theorem level_eq {b b' x x' : Str} (h : Level b) (h' : Level b') (he : b ++ x = b' ++ x') : b = b' ∧ x = x' := by
  have h1 := (level_FA (c := x) h).1
  have h2 := (level_FA (c := x') h').1
  rw [he, h2] at h1
  exact List.append_inj he h1.symm

theorem gives_unique {t : Token} {s l s' l' : Str} (h : Gives t s l) (h' : Gives t s' l') : s = s' ∧ l = l' := by
  obtain ⟨hs, h⟩ := h
  obtain ⟨hs', h'⟩ := h'
  split at h
  · rename_i hb
    simp only [hb] at h'
    rw [h.2] at h'
    obtain ⟨h1, h2⟩ := speed_eq hs hs' h'.2
    exact ⟨h1, h2⟩
  · rename_i hb
    simp only [hb] at h'
    obtain ⟨hl, to, _, ht⟩ := h
    obtain ⟨hl', to', _, ht'⟩ := h'
    rw [ht, List.append_assoc, List.append_assoc] at ht'
    obtain ⟨h1, h2⟩ := speed_eq hs hs' ht'
    exact ⟨h1, (level_eq hl hl' h2).1⟩
  · rename_i hb
    simp only [hb] at h'
    obtain ⟨hl, ht⟩ := h
    obtain ⟨hl', ht'⟩ := h'
    rw [ht, List.append_assoc, List.append_assoc] at ht'
    obtain ⟨h1, h2⟩ := speed_eq hs hs' ht'
    exact ⟨h1, (level_eq hl hl' h2).1⟩
  · rename_i hb
    simp only [hb] at h'
    obtain ⟨hl, ht⟩ := h
    obtain ⟨hl', ht'⟩ := h'
    rw [ht] at ht'
    exact ⟨(speed_eq hs hs' ht').1, hl.trans hl'.symm⟩
  · exact h.elim

theorem minutes_unique {s : Str} {n n' : Int} (h : StayMinutes s n) (h' : StayMinutes s n') : n = n' := by
  obtain ⟨a, b, c, d, rfl, _, _, _, _, h1, _⟩ := h
  obtain ⟨a', b', c', d', he, _, _, _, _, h1', _⟩ := h'
  cases he
  rw [h1, h1']

theorem stay_unique {l : List (Token × Role)} {n n' : Int} (h : StayOf l n) (h' : StayOf l n') : n = n' := by
  rcases h with ⟨h0, h⟩ | ⟨a, t, b, rfl, hb, hm, hl⟩
  · rcases h' with ⟨h0', h'⟩ | ⟨a', t', b', rfl, hb', _, _⟩
    · rw [h0, h0']
    · exact absurd ⟨rfl, hb'⟩ (h (t', .note) (by simp))
  · rcases h' with ⟨h0', h'⟩ | ⟨a', t', b', he, hb', hm', hl'⟩
    · exact absurd ⟨rfl, hb⟩ (h' (t, .note) (by simp))
    · have : t = t' := by
        rcases List.append_eq_append_iff.1 he with ⟨c, h1, h2⟩ | ⟨c, h1, h2⟩
        · cases c with
          | nil => simp at h2; exact h2.1
          | cons x c =>
            simp only [List.cons_append, List.cons.injEq] at h2
            exact absurd ⟨rfl, hb'⟩ (hl (t', .note) (by rw [h2.2]; simp))
        · cases c with
          | nil => simp at h2; exact h2.1.symm
          | cons x c =>
            simp only [List.cons_append, List.cons.injEq] at h2
            exact absurd ⟨rfl, hb⟩ (hl' (t, .note) (by rw [h2.2]; simp))
      rw [this] at hm
      exact minutes_unique hm hm'

theorem plus_not {c : Str} (h : Level c) : c ≠ py! "PLUS" := by
  rintro rfl
  rcases h with ⟨u, d, hu, h, _⟩ | ⟨u, d, hu, h, _⟩ <;>
    · cases h
      simp at hu

theorem climb_unique {after : List (Token × Role)} {x x' : Str} {n n' : Int} (h : ClimbTo after x n F) (h' : ClimbTo after x' n' F) :
    x = x' ∧ n = n' := by
  obtain ⟨s, l, rest, rfl, _, h⟩ := h
  obtain ⟨s', l', rest', he, _, h'⟩ := h'
  cases he
  have key : ∀ {a b c a' b' c' : Str}, Speed a → Level b → l.text = a ++ b ++ c → Speed a' → Level b' → l.text = a' ++ b' ++ c' →
      a = a' ∧ b = b' ∧ c = c' := by
    intro a b c a' b' c' h1 h2 h3 h4 h5 h6
    rw [h3, List.append_assoc, List.append_assoc] at h6
    obtain ⟨k1, k2⟩ := speed_eq h1 h4 h6
    obtain ⟨k3, k4⟩ := level_eq h2 h5 k2
    exact ⟨k1, k3, k4⟩
  rcases h with ⟨a, b, h1, h2, h3, rfl, rfl⟩ | ⟨a, b, c, h1, h2, hc, h3, rfl, rfl⟩ <;>
    rcases h' with ⟨a', b', h1', h2', h3', rfl, rfl⟩ | ⟨a', b', c', h1', h2', hc', h3', rfl, rfl⟩ <;>
    obtain ⟨rfl, rfl, hcc⟩ := key h1 h2 h3 h1' h2' h3'
  · exact ⟨rfl, rfl⟩
  · exact absurd hcc.symm (plus_not hc')
  · exact absurd hcc (plus_not hc)
  · subst hcc; exact ⟨rfl, rfl⟩

theorem deg_unique {s : Str} {p p' : F × F} (h : DegPosition s p) (h' : DegPosition s p') : p = p' := by
  obtain ⟨a, b, k, c, d, e, m, rfl, _, _, _, rfl⟩ := h
  obtain ⟨_, _, _, _, _, _, _, he, _, _, _, rfl⟩ := h'
  cases he; rfl

theorem min_unique {s : Str} {p p' : F × F} (h : MinPosition s p) (h' : MinPosition s p') : p = p' := by
  obtain ⟨a, b, c, d, k, e, f, g, i, j, m, rfl, _, _, _, rfl⟩ := h
  obtain ⟨_, _, _, _, _, _, _, _, _, _, _, he, _, _, _, rfl⟩ := h'
  cases he; rfl

theorem offset_unique {s : Str} {p q q' : F × F} (h : OffsetPosition s p q) (h' : OffsetPosition s p q') : q = q' := by
  obtain ⟨a, b, c, d, e, f, rfl, _, rfl⟩ := h
  obtain ⟨_, _, _, _, _, _, he, _, rfl⟩ := h'
  cases he; rfl

theorem decoded_unique {r r' : Record F} (hn : r.name = r'.name) (hs : r.sub = r'.sub) (h : DecodedPosition r) (h' : DecodedPosition r') :
    (r.latitude, r.longitude) = (r'.latitude, r'.longitude) := by
  unfold DecodedPosition at h h'
  rw [← hn, ← hs] at h'
  have hD : ∀ {u : Str} {p : F × F}, DegPosition u p → u.length = 7 := by rintro u p ⟨_, _, _, _, _, _, _, rfl, _⟩; rfl
  have hM : ∀ {u : Str} {p : F × F}, MinPosition u p → u.length = 11 := by rintro u p ⟨_, _, _, _, _, _, _, _, _, _, _, rfl, _⟩; rfl
  rcases h with ⟨h1, h2⟩ | ⟨h1, h2⟩ | ⟨h1, u, v, p, h2, h3, h4⟩ | ⟨h1, u, v, p, h2, h3, h4⟩ <;>
    rcases h' with ⟨h1', h2'⟩ | ⟨h1', h2'⟩ | ⟨h1', u', v', p', h2', h3', h4'⟩ | ⟨h1', u', v', p', h2', h3', h4'⟩ <;>
    first
    | (rw [h1] at h1'; cases h1'; done)
    | skip
  · exact deg_unique h2 h2'
  · exact min_unique h2 h2'
  · rw [h2] at h2'
    obtain ⟨rfl, rfl⟩ := List.append_inj h2' ((hD h3).trans (hD h3').symm)
    rw [deg_unique h3 h3'] at h4
    exact offset_unique h4 h4'
  · rw [h2] at h2'
    obtain ⟨rfl, rfl⟩ := List.append_inj h2' ((hM h3).trans (hM h3').symm)
    rw [min_unique h3 h3'] at h4
    exact offset_unique h4 h4'

/-- Forget the bearing and the distance. -/
def unaim (r : Record F) : Record F := { r with bearing := fzero, distance := fzero }

theorem filled_unique {said own : List (Token × Role)} {r r' : Record F} (h : Filled said own r) (h' : Filled said own r') :
    r.speed = r'.speed ∧ r.altitude = r'.altitude ∧ r.altitudeSi = r'.altitudeSi ∧ r.speedSi = r'.speedSi ∧
    r.stayTime = r'.stayTime ∧ r.errorText = r'.errorText := by
  obtain ⟨c, h1, h2⟩ := h.change
  obtain ⟨c', h1', h2'⟩ := h'.change
  rw [last_change_unique h1 h1'] at h2
  obtain ⟨k1, k2⟩ := gives_unique h2 h2'
  have k3 : r.altitudeSi = r'.altitudeSi := by rw [h.si.1, h'.si.1, k2]
  exact ⟨k1, k2, k3, by rw [h.si.2, h'.si.2, k1, k3], stay_unique h.stay h'.stay, h.noError.trans h'.noError.symm⟩

theorem unaim_eq {r r' : Record F} (h1 : r.name = r'.name) (h2 : r.start = r'.start) (h3 : r.stop = r'.stop) (h4 : r.base = r'.base)
    (h5 : r.sub = r'.sub) (h6 : r.speed = r'.speed ∧ r.altitude = r'.altitude ∧ r.altitudeSi = r'.altitudeSi ∧
      r.speedSi = r'.speedSi ∧ r.stayTime = r'.stayTime ∧ r.errorText = r'.errorText) (h7 : r.rules = r'.rules)
    (h8 : r.breakText = r'.breakText) (h9 : r.cruiseTo = r'.cruiseTo ∧ r.cruiseToSi = r'.cruiseToSi)
    (h10 : r.latLongValid = r'.latLongValid ∧ (r.latitude, r.longitude) = (r'.latitude, r'.longitude)) : unaim r = unaim r' := by
  cases r; cases r'
  simp only [Prod.mk.injEq] at *
  obtain ⟨_, _, _, _, _, _⟩ := h6
  obtain ⟨_, _⟩ := h9
  obtain ⟨_, _, _⟩ := h10
  subst_vars
  rfl

theorem element_unique {before after : List (Token × Role)} {m : Token × Role} {r r' : Record F} (h : RouteElement before m after r)
    (h' : RouteElement before m after r') : unaim r = unaim r' := by
  obtain ⟨n1, n2, n3, n4, n5⟩ := h.name
  obtain ⟨n1', n2', n3', n4', n5'⟩ := h'.name
  have hn := n3.trans n3'.symm
  have hs := n5.trans n5'.symm
  refine unaim_eq hn (n1.trans n1'.symm) (n2.trans n2'.symm) (n4.trans n4'.symm) hs
    (filled_unique h.filled h'.filled) (h.rules.trans h'.rules.symm) (h.text.trans h'.text.symm) ?_ ?_
  · by_cases hm : m.2 = .slot
    · exact climb_unique (h.climb hm) (h'.climb hm)
    · obtain ⟨a, b⟩ := h.noClimb hm
      obtain ⟨a', b'⟩ := h'.noClimb hm
      exact ⟨a.trans a'.symm, b.trans b'.symm⟩
  · by_cases hp : isLatLong m.1.sub ∧ ¬ Overlooked before after
    · obtain ⟨a, b⟩ := h.place hp.1 hp.2
      obtain ⟨a', b'⟩ := h'.place hp.1 hp.2
      exact ⟨a.trans a'.symm, decoded_unique hn hs b b'⟩
    · have : ¬ isLatLong m.1.sub ∨ Overlooked before after := by
        by_cases hl : isLatLong m.1.sub
        · right
          by_cases ho : Overlooked before after
          · exact ho
          · exact absurd ⟨hl, ho⟩ hp
        · exact .inl hl
      obtain ⟨a, b, c⟩ := h.noPlace this
      obtain ⟨a', b', c'⟩ := h'.noPlace this
      exact ⟨a.trans a'.symm, by rw [b, c, b', c']⟩

theorem departure_unique {ts : List Token} {r r' : Record F} (h : DepartureOf ts r) (h' : DepartureOf ts r') : unaim r = unaim r' := by
  obtain ⟨n1, n2, n3, n4, n5⟩ := h.name
  obtain ⟨n1', n2', n3', n4', n5'⟩ := h'.name
  obtain ⟨a, b, c⟩ := h.noPlace
  obtain ⟨a', b', c'⟩ := h'.noPlace
  exact unaim_eq (n1.trans n1'.symm) (n2.trans n2'.symm) (n3.trans n3'.symm) (n4.trans n4'.symm) (n5.trans n5'.symm)
    (filled_unique h.filled h'.filled) (h.rules.trans h'.rules.symm) (h.text.trans h'.text.symm)
    ⟨h.noClimb.1.trans h'.noClimb.1.symm, h.noClimb.2.trans h'.noClimb.2.symm⟩ ⟨a.trans a'.symm, by rw [b, c, b', c']⟩

theorem unaim_loc {r r' : Record F} (h : unaim r = unaim r') : LocEq r r' :=
  ⟨(congrArg Record.latLongValid h).symm, (congrArg Record.latitude h).symm, (congrArg Record.longitude h).symm⟩

theorem unaim_all {l l' : List (Record F)} (h : l.map unaim = l'.map unaim) : All2 LocEq l l' := by
  induction l generalizing l' with
  | nil => cases l' with
    | nil => exact .nil
    | cons => cases h
  | cons r l ih => cases l' with
    | nil => cases h
    | cons r' l' =>
      simp only [List.map_cons, List.cons.injEq] at h
      exact .cons (unaim_loc h.1) (ih h.2)

theorem aim_unique {l l' : List (Record F)} (h : l.map unaim = l'.map unaim)
    (hc : ∀ before r following, l = before ++ r :: following → (r.bearing, r.distance) = courseOf r following)
    (hc' : ∀ before r following, l' = before ++ r :: following → (r.bearing, r.distance) = courseOf r following) : l = l' := by
  induction l generalizing l' with
  | nil => cases l' with
    | nil => rfl
    | cons => cases h
  | cons r l ih => cases l' with
    | nil => cases h
    | cons r' l' =>
      simp only [List.map_cons, List.cons.injEq] at h
      have hl : l = l' := ih h.2 (fun b x f hx => hc (r :: b) x f (by rw [hx]; rfl)) (fun b x f hx => hc' (r' :: b) x f (by rw [hx]; rfl))
      have h1 := hc [] r l rfl
      have h2 := hc' [] r' l' rfl
      rw [courseOf_congr (unaim_loc h.1) ((unaim_all h.2).take 2), ← h2] at h1
      have : r = r' := by
        have h0 := h.1
        cases r; cases r'
        simp only [Prod.mk.injEq] at h1
        simp only [unaim, Record.mk.injEq] at h0 ⊢
        obtain ⟨a1, a2, a3, a4, a5, a6, a7, a8, a9, a10, a11, a12, a13, a14, a15, a16, a17, _, _, a18⟩ := h0
        exact ⟨a1, a2, a3, a4, a5, a6, a7, a8, a9, a10, a11, a12, a13, a14, a15, a16, a17, h1.1, h1.2, a18⟩
      rw [this, hl]

theorem meaning_unique {ts : List Token} {l l' : List (Record F)} (h : Meaning ts l) (h' : Meaning ts l') : l = l' := by
  refine aim_unique (List.ext_getElem? fun k => ?_) h.course h'.course
  have hroute : ∀ k, k < elementCount (roles ts) + 1 → (l[k]?).map unaim = (l'[k]?).map unaim := by
    intro k hk
    cases k with
    | zero =>
      obtain ⟨r, h1, h2⟩ := h.departure
      obtain ⟨r', h1', h2'⟩ := h'.departure
      rw [h1, h1']
      exact congrArg some (departure_unique h2 h2')
    | succ k =>
      obtain ⟨pre, m, after, h1, h2, h3⟩ := split_at (roles ts) k (by omega)
      obtain ⟨r, k1, k2⟩ := h.route pre m after h1 h2
      obtain ⟨r', k1', k2'⟩ := h'.route pre m after h1 h2
      rw [h3] at k1 k1'
      rw [k1, k1']
      exact congrArg some (element_unique k2 k2')
  rw [List.getElem?_map, List.getElem?_map]
  by_cases hk : k < elementCount (roles ts) + 1
  · exact hroute k hk
  · by_cases hk' : k = elementCount (roles ts) + 1
    · obtain ⟨p, h1, h2⟩ := h.arrival
      obtain ⟨p', h1', h2'⟩ := h'.arrival
      have := hroute (elementCount (roles ts)) (by omega)
      rw [h1, h1'] at this
      have hu : unaim p = unaim p' := by simpa using this
      have hu' : (unaim p).rules = (unaim p').rules := by rw [hu]
      have hp : p.rules = p'.rules := hu'
      rw [hk', h2, h2', hp]
    · rw [List.getElem?_eq_none (by rw [h.count]; omega), List.getElem?_eq_none (by rw [h'.count]; omega)]

/-- **C68** The rules leave nothing open: a list of elements that follows them is the parser's, down to the last attribute. -/
theorem c68_only {frames : Nat} {tokens : Tokens} {e : Ers F} (h : parseF15 frames Ers.new tokens = .ok (true, e))
    (hne : ∀ t ∈ tokens.toks, t.text ≠ []) {l : List (Record F)} : Meaning (typedTokens tokens) l ↔ l = e.elements := by
  constructor
  · intro hl; exact meaning_unique hl (c68 h hne)
  · rintro rfl; exact c68 h hne

/-- **C68** The same from the text: whatever is cut into tokens and accepted means what the rules say, and only that. -/
theorem c68_text {frames : Nat} (ws s : Str) {e : Ers F} (h : parseF15 frames Ers.new ⟨tokenizeList ws s, 0⟩ = .ok (true, e))
    {l : List (Record F)} : Meaning (typedTokens ⟨tokenizeList ws s, 0⟩) l ↔ l = e.elements :=
  c68_only h fun t ht => layout_ne (c04_layout_exists ws s) t.text (List.mem_map.2 ⟨t, ht, rfl⟩)

/-- A field 15 with every kind of attribute is accepted; its fourth element has a stay, the fifth a cruise climb, the eighth free text,
and the ninth is the one whose position is overlooked. -/
example : check (py! "N0450F350 50N010E/M082F330 DCT 5030N01015W STAY1/0130 C/52N010W/N0450F290F350 DCT ABC VFR FREE WORDS IFR 40N020W/N0120VFR SIGHT")
    (fun b e => b && decide (e.elements.map (fun r => (r.name, r.speed, r.altitude)) = [
      (py! "ADEP", py! "N0450", py! "F350"), (py! "50N010E", py! "M082", py! "F330"),
      (py! "DCT", py! "M082", py! "F330"), (py! "5030N01015W", py! "M082", py! "F330"),
      (py! "52N010W", py! "N0450", py! "F290"), (py! "DCT", py! "N0450", py! "F290"),
      (py! "ABC", py! "N0450", py! "F290"), (py! "VFR", py! "N0450", py! "F290"),
      (py! "40N020W", py! "N0120", py! "F050"), (py! "VFR", py! "N0120", py! "F050"),
      (py! "ADES", [], [])]) && decide (e.elements.map (fun r => (r.stayTime, r.cruiseTo, r.breakText)) = [
      (0, [], []), (0, [], []), (0, [], []), (90, [], []), (0, py! "F350", []), (0, [], []), (0, [], []),
      (0, [], py! "FREE WORDS IFR"), (0, [], []), (0, [], py! "SIGHT"), (0, [], [])]) &&
      decide (e.elements.map (·.latLongValid) = [false, true, false, true, true, false, false, false, false, false, false])) = true := by
  decide +kernel

end F15
