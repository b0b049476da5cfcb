import Verif.Props.Direct
import Verif.Props.Recover
/-!
# C91: a mistyped connector costs its element and one error
-/

namespace F15
open Spec

set_option linter.unusedSectionVars false
variable {F : Type} [PyFloat F]

/-- **C91** The DCT or ATS route between two points may be left out: the field 15 without it is accepted, and has the same elements but for
that one. -/
theorem c91_leave {frames frames' : Nat} {u s v : List Token} {p d : Token} {e' : Ers F}
    (h : parseF15 frames (Ers.new : Ers F) ⟨u ++ p :: s ++ d :: v, 0⟩ = .ok (true, e')) (hne : ∀ t ∈ u ++ p :: s ++ d :: v, t.text ≠ [])
    {before after : List (Token × Role)} (hr : roles (typedTokens ⟨u ++ p :: s ++ d :: v, 0⟩) = before ++ (assignSyntax p, .head) :: after)
    (hlen : before.length = u.length) (hp : (assignSyntax p).base = .POINT) (hs : Remarks (s.map assignSyntax))
    (hd : (assignSyntax d).base = .DCT ∨ (assignSyntax d).base = .ROUTE) (hf : 4 * (u ++ p :: s ++ v).length ≤ frames') :
    ∃ e, parseF15 frames' (Ers.new : Ers F) ⟨u ++ p :: s ++ v, 0⟩ = .ok (true, e) ∧
      WithConnector (assignSyntax d).base (elementCount before + 1) d e.elements e'.elements :=
  leave_connector h hne hr hlen hp hs hd hf

/-- The last word of a point with remarks. -/
theorem remarks_last {p : Token} {s : List Token} (hp : (assignSyntax p).base = .POINT) (hs : Remarks (s.map assignSyntax)) :
    ∃ t, (p :: s).getLast? = some t ∧ ((assignSyntax t).base = .POINT ∨ (assignSyntax t).base = .SPEED_ALTITUDE ∨ (assignSyntax t).base = .STAY_TIME) := by
  have key : ∀ r : List Token, Remarks r → r = [] ∨ ∃ t, r.getLast? = some t ∧ (t.base = .SPEED_ALTITUDE ∨ t.base = .STAY_TIME) := by
    intro r hr
    induction hr with
    | none => exact .inl rfl
    | @level s l rest hs hl h ih =>
      rcases ih with rfl | ⟨t, h1, h2⟩
      · exact .inr ⟨l, rfl, .inl hl⟩
      · refine .inr ⟨t, ?_, h2⟩
        rw [List.getLast?_cons, List.getLast?_cons, h1]; rfl
    | @stay t s m ht hs hm => exact .inr ⟨m, rfl, .inr hm⟩
  rcases key _ hs with h | ⟨t, h1, h2⟩
  · rw [List.map_eq_nil_iff] at h; subst h
    exact ⟨p, rfl, .inl hp⟩
  · rw [List.getLast?_map] at h1
    cases hl : s.getLast? with
    | none => rw [hl] at h1; cases h1
    | some x =>
      rw [hl] at h1
      cases h1
      exact ⟨x, by rw [List.getLast?_cons, hl]; rfl, .inr h2⟩

theorem climb_base {d : Token} (hd : d.text = py! "C") : (assignSyntax d).base = .C := by
  have : getTokenType (py! "C") = (.C, .C) := by decide +kernel
  rw [assignSyntax_eq, hd]
  simp only [this]
  rw [if_neg (by decide)]

/-- The place behind a point and its remarks, before a DCT or an ATS route, is a place between two items, and not an end. -/
theorem between_connector {frames frames' : Nat} {u s v : List Token} {p d : Token} {e' : Ers F}
    (h : parseF15 frames (Ers.new : Ers F) ⟨u ++ p :: s ++ d :: v, 0⟩ = .ok (true, e')) (hne : ∀ t ∈ u ++ p :: s ++ d :: v, t.text ≠ [])
    {before after : List (Token × Role)} (hr : roles (typedTokens ⟨u ++ p :: s ++ d :: v, 0⟩) = before ++ (assignSyntax p, .head) :: after)
    (hlen : before.length = u.length) (hp : (assignSyntax p).base = .POINT) (hs : Remarks (s.map assignSyntax))
    (hd : (assignSyntax d).base = .DCT ∨ (assignSyntax d).base = .ROUTE) (hf : 4 * (u ++ p :: s).length ≤ frames') :
    Between F frames' (u ++ p :: s) ∧ ¬ Closed (u ++ p :: s) := by
  obtain ⟨t, ht, htb⟩ := remarks_last hp hs
  have hlast : (u ++ p :: s).getLast? = some t := by
    rw [List.getLast?_append, ht]; rfl
  refine ⟨.inr ⟨?_, ?_⟩, ?_⟩
  · have hT : ∀ l : List Token, ∀ x ∈ typedTokens ⟨l, 0⟩, Typed x := fun l x hx => typed_map hx
    obtain ⟨as, hsent⟩ := (sentence_iff (hT _)).1 (c22_sound _ h)
    obtain ⟨hbu, hav⟩ := roles_cut (u := u.map assignSyntax) (s := s.map assignSyntax) (v := assignSyntax d :: v.map assignSyntax)
      (by simp [typedTokens]) hr (by simp [hlen])
    have ho := remarks_looked (b := before) hs hav fun t ht => by
      cases ht; rcases hd with hd | hd <;> simp [hd]
    obtain ⟨hn, ⟨as1, hrun⟩, hmark⟩ := sent_cut hsent hr hp ho
    rw [hav] at hrun hmark
    obtain ⟨ph, hph, -, hback⟩ := run_remarks hs hrun
    obtain ⟨as5, hrw⟩ := hback [] _ (.stop _)
    obtain ⟨⟨as6, hsent'⟩, hr'⟩ := sent_swap hsent hr hp hn hrw
      (by rw [hav]; exact slashed_remarks hs (by rintro ⟨_, _, h, _⟩; cases h) (direct_slash hd))
    have hts : before.map (·.1) ++ assignSyntax p :: (s.map assignSyntax ++ []) = typedTokens ⟨u ++ p :: s, 0⟩ := by
      rw [hbu]; simp [typedTokens]
    rw [hts] at hsent' hr'
    rw [mark_remarks hs, show mark (.route false) [] = [] from rfl, List.append_nil] at hr'
    obtain ⟨e, he⟩ := (c22 (F := F) (frames := frames') ⟨u ++ p :: s, 0⟩ (by simpa using hf)).2 ((sentence_iff (hT _)).2 ⟨_, hsent'⟩)
    refine ⟨e, he, ?_⟩
    have m := c68 he (by
      intro t ht
      have ht : t ∈ u ++ p :: s := ht
      exact hne t (by rw [List.mem_append]; exact .inl ht))
    obtain ⟨r, hr1, hr2⟩ := m.route _ _ _ hr' rfl
    have hcount : elementCount (roles (typedTokens ⟨u ++ p :: s, 0⟩)) = elementCount before + 1 := by
      rw [hr']
      have : (notes (s.map assignSyntax)).filter (·.2.isElement) = [] := by
        rw [List.filter_eq_nil_iff]
        intro x hx
        rw [notes_note x hx]; decide
      unfold elementCount
      rw [List.filter_append, List.filter_cons_of_pos rfl, this, List.length_append]; rfl
    obtain ⟨q, hq1, hq2⟩ := m.arrival
    rw [hcount] at hq1 hq2
    rw [hr1] at hq1
    cases hq1
    rw [List.getLast?_eq_getElem?, m.count, hcount]
    rw [show elementCount before + 1 + 2 - 1 = elementCount before + 1 + 1 from rfl, hq2]
    have := hr2.rules
    simp [elementRules, hp] at this
    simp [destination, this]
  · rw [hlast]
    intro hc
    have hc : t.text = py! "C" := by simpa using hc
    rw [climb_base hc] at htb
    simp at htb
  · rintro ⟨x, hx, hb⟩
    rw [hlast] at hx
    cases hx
    rcases htb with h | h | h <;> rw [h] at hb <;> simp at hb

/-- **C91** Mistype the DCT or ATS route `d` between two points into a word `w` that can start no item: the field 15 is refused with exactly
one error, about `w`, and its elements are those of the correct field 15 without the one of `d`. -/
theorem c91 {frames frames' : Nat} {u s v : List Token} {p d w : Token} {e' : Ers F}
    (h : parseF15 frames (Ers.new : Ers F) ⟨u ++ p :: s ++ d :: v, 0⟩ = .ok (true, e')) (hne : ∀ t ∈ u ++ p :: s ++ d :: v, t.text ≠ [])
    {before after : List (Token × Role)} (hr : roles (typedTokens ⟨u ++ p :: s ++ d :: v, 0⟩) = before ++ (assignSyntax p, .head) :: after)
    (hlen : before.length = u.length) (hp : (assignSyntax p).base = .POINT) (hs : Remarks (s.map assignSyntax))
    (hd : (assignSyntax d).base = .DCT ∨ (assignSyntax d).base = .ROUTE) (hw : Stray w) (hf : 4 * (u ++ p :: s ++ w :: v).length ≤ frames') :
    ∃ f r n, parseF15 frames' (Ers.new : Ers F) ⟨u ++ p :: s ++ w :: v, 0⟩ = .ok (false, f) ∧
      WithConnector (assignSyntax d).base (elementCount before + 1) d f.elements e'.elements ∧
      f.derived = e'.derived ∧ f.errors = [r] ∧ ErrorIs (assignSyntax w) n r := by
  obtain ⟨e, h1, h2⟩ := leave_connector (frames' := frames') h hne hr hlen hp hs hd (by
    simp only [List.length_append, List.length_cons] at hf ⊢; omega)
  obtain ⟨hb, hc⟩ := between_connector (frames' := frames') h hne hr hlen hp hs hd (by
    simp only [List.length_append, List.length_cons] at hf ⊢; omega)
  obtain ⟨f, r, n, k1, k2, k3, k4, k5⟩ := c63_one (.inr hc) hb hw hf h1
  refine ⟨f, r, n, k1, by rw [k2]; exact h2, ?_, k4, k5⟩
  rw [k3]
  have hnew : (Ers.new : Ers F).elements ≠ [] := by show (Ers.new : Ers F).recs.reverse ≠ []; simp [new_recs]
  rw [(c14 hnew (by simp) h1).1, (c14 hnew (by simp) h).1]
  obtain ⟨⟨hl1, hl2⟩, ⟨a, b, ha, hb', -, -, -, -, hbr, -⟩, hbeh, -⟩ := h2
  -- the point itself is flown under IFR
  obtain ⟨a', ha', hra⟩ := (c68 h hne).route _ _ _ hr rfl
  rw [ha] at ha'
  cases ha'
  have hrules : a.rules = py! "IFR" := by
    have := hra.rules
    simpa [elementRules, hp] using this
  have e1 : e.elements.map (·.rules) = (e.elements.map (·.rules)).take (elementCount before + 1 + 1) ++ (e'.elements.map (·.rules)).drop (elementCount before + 1 + 2) := by
    rw [← List.map_drop, ← hbeh, List.map_drop, List.take_append_drop]
  have e2 : (e.elements.map (·.rules)).take (elementCount before + 1 + 1) = (e'.elements.map (·.rules)).take (elementCount before + 1 + 1) := by
    rw [← List.map_take, ← List.map_take]
    apply List.ext_getElem?
    intro i
    rw [List.getElem?_map, List.getElem?_map]
    cases h3 : (List.take (elementCount before + 1 + 1) e.elements)[i]? with
    | none => rw [List.getElem?_eq_none (by have := List.getElem?_eq_none_iff.1 h3; omega)]
    | some x =>
      have hi := (List.getElem?_eq_some_iff.1 h3).1
      have h4 := List.getElem?_eq_getElem (l := List.take (elementCount before + 1 + 1) e'.elements) (i := i) (by omega)
      rw [h4]
      have := hl2 i _ _ h3 h4
      simp only [Option.map_some, Option.some.injEq]
      rw [this]
  have e3 : e'.elements.map (·.rules) = (e'.elements.map (·.rules)).take (elementCount before + 1 + 1) ++
      py! "IFR" :: (e'.elements.map (·.rules)).drop (elementCount before + 1 + 2) := by
    have : (e'.elements.map (·.rules))[elementCount before + 1 + 1]? = some (py! "IFR") := by
      rw [List.getElem?_map, hb', Option.map_some, hbr]
    exact split_get this
  have hin : py! "IFR" ∈ (e'.elements.map (·.rules)).take (elementCount before + 1 + 1) := by
    refine List.mem_iff_getElem?.2 ⟨elementCount before + 1, ?_⟩
    rw [List.getElem?_take_of_lt (by omega), List.getElem?_map, ha, Option.map_some, hrules]
  rw [e1, e2, e3]
  rw [← e3]
  generalize (e'.elements.map (·.rules)).take (elementCount before + 1 + 1) = x at *
  generalize (e'.elements.map (·.rules)).drop (elementCount before + 1 + 2) = y at *
  rw [e3]
  cases x with
  | nil => cases hin
  | cons z x =>
    unfold derivedOf
    simp only [List.cons_append, List.head?_cons]
    have i1 : py! "IFR" ∈ z :: (x ++ y) := by rw [← List.cons_append]; exact List.mem_append_left _ hin
    have i2 : py! "IFR" ∈ z :: (x ++ py! "IFR" :: y) := by simp
    have i3 : py! "VFR" ∈ z :: (x ++ y) ↔ py! "VFR" ∈ z :: (x ++ py! "IFR" :: y) := by simp
    simp only [i1, i2, i3]

/-! ### Examples -/

/-- The airway `UL856` mistyped into `UL8567X` (too long for an airway, not a point): one error, and the elements without the airway. -/
example : ∃ e' f : Ers Rat, ∃ r n,
    parseF15 100 Ers.new ⟨[exTok (py! "N0450F350")] ++ exTok (py! "LNZ") :: [exTok (py! "/"), exTok (py! "N0400F330")] ++
      exTok (py! "UL856") :: [exTok (py! "PNT")], 0⟩ = .ok (true, e') ∧
    parseF15 100 Ers.new ⟨[exTok (py! "N0450F350")] ++ exTok (py! "LNZ") :: [exTok (py! "/"), exTok (py! "N0400F330")] ++
      exTok (py! "UL8567X") :: [exTok (py! "PNT")], 0⟩ = .ok (false, f) ∧
    e'.elements.map (·.name) = [py! "ADEP", py! "LNZ", py! "UL856", py! "PNT", py! "ADES"] ∧ f.elements.length = 4 ∧
    f.elements.drop 2 = e'.elements.drop 3 ∧ f.errors = [r] ∧ ErrorIs (assignSyntax (exTok (py! "UL8567X"))) n r := by
  have hacc : ((parseF15 100 (Ers.new : Ers Rat) ⟨[exTok (py! "N0450F350")] ++ exTok (py! "LNZ") :: [exTok (py! "/"), exTok (py! "N0400F330")] ++
      exTok (py! "UL856") :: [exTok (py! "PNT")], 0⟩).toOption.map fun x => (x.1, x.2.elements.map (·.name))) =
      some (true, [py! "ADEP", py! "LNZ", py! "UL856", py! "PNT", py! "ADES"]) := by decide +kernel
  cases h : parseF15 100 (Ers.new : Ers Rat) ⟨[exTok (py! "N0450F350")] ++ exTok (py! "LNZ") :: [exTok (py! "/"), exTok (py! "N0400F330")] ++
      exTok (py! "UL856") :: [exTok (py! "PNT")], 0⟩ with
  | error => rw [h] at hacc; simp [Except.toOption] at hacc
  | ok x =>
    obtain ⟨b, e'⟩ := x
    rw [h] at hacc
    simp only [Except.toOption, Option.map_some, Option.some.injEq, Prod.mk.injEq] at hacc
    obtain ⟨rfl, hnames⟩ := hacc
    obtain ⟨f, r, n, k1, k2, _, k4, k5⟩ := c91 (frames' := 100) (w := exTok (py! "UL8567X"))
      (before := [(assignSyntax (exTok (py! "N0450F350")), .note)])
      (after := [(assignSyntax (exTok (py! "/")), .note), (assignSyntax (exTok (py! "N0400F330")), .note),
        (assignSyntax (exTok (py! "UL856")), .head), (assignSyntax (exTok (py! "PNT")), .head)])
      h (by decide +kernel) (by decide +kernel) rfl (by decide +kernel)
      (.level (by decide +kernel) (by decide +kernel) .none) (.inr (by decide +kernel)) (by unfold Stray; decide +kernel) (by decide)
    have hc : elementCount [(assignSyntax (exTok (py! "N0450F350")), Role.note)] + 1 = 1 := by decide +kernel
    rw [hc] at k2
    have hl : e'.elements.length = 5 := by have := congrArg List.length hnames; simpa using this
    refine ⟨e', f, r, n, rfl, k1, hnames, ?_, k2.behind, k4, k5⟩
    have h1 := k2.before.1
    have h2 := congrArg List.length k2.behind
    simp only [List.length_take, List.length_drop, hl] at h1 h2
    omega

/-- A connector mistyped into a point is another route, and no error. -/
example : check (py! "N0450F350 LNZ UL8 PNT") (fun b _ => b) = true ∧ check (py! "N0450F350 LNZ ULB PNT") (fun b _ => b) = true := by
  decide +kernel

end F15
