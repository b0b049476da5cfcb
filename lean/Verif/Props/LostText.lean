import Verif.Props.Torn
import Verif.Props.FreeText
/-!
# C93 and C94 for texts

The garbled text has its words in other places than the correct one. So what is said of the elements is said of the elements but for their places.
-/

namespace F15
open Spec

set_option linter.unusedSectionVars false
variable {F : Type} [PyFloat F]

theorem texts_nil {l l' : List Token} (h : l.map (·.text) = l'.map (·.text)) : l = [] ↔ l' = [] := by
  cases l <;> cases l' <;> simp_all

theorem noRemark_same {l l' : List Token} (h : l.map (·.text) = l'.map (·.text)) (hn : NoRemark l) : NoRemark l' := by
  intro t' ht'
  cases l' with
  | nil => cases ht'
  | cons a l' =>
  cases l with
  | nil => simp at h
  | cons b l =>
  cases ht'
  simp only [List.map_cons, List.cons.injEq] at h
  rw [← assign_base h.1]
  exact hn b rfl

theorem cannotCome_same {u u' : List Token} {w w' : Token} (h : u.map (·.text) = u'.map (·.text)) (hw : w.text = w'.text) (hc : CannotCome u w) :
    CannotCome u' w' := by
  rcases hc with hc | ⟨h1, h2, h3⟩
  · left; unfold Stray at hc ⊢; rw [← assign_base hw]; exact hc
  · exact .inr ⟨fun hx => h1 (extendable_same (by simp [h, hw]) hx), by rw [← assign_base hw]; exact h2, by rw [← assign_base hw]; exact h3⟩

theorem last_same {u u' : List Token} (h : u.map (·.text) = u'.map (·.text)) : u.getLast?.map (·.text) = u'.getLast?.map (·.text) := by
  rw [← List.getLast?_map, ← List.getLast?_map, h]

theorem lost_rules_same {l l' : List (Record F)} (h : l.map noPlace = l'.map noPlace) : l.getLast?.map (·.rules) = l'.getLast?.map (·.rules) := by
  have : ∀ l : List (Record F), l.getLast?.map (·.rules) = (l.map noPlace).getLast?.map (·.rules) := by
    intro l; rw [List.getLast?_map, Option.map_map]; rfl
  rw [this l, this l', h]

theorem resting_same {u u' : List Token} (h : u.map (·.text) = u'.map (·.text)) (hr : Resting F u) : Resting F u' := by
  obtain ⟨⟨n, e, he, hi⟩, hc⟩ := hr
  obtain ⟨e', he', hs⟩ := same_words he h
  exact ⟨⟨n, e', he', by rw [← lost_rules_same hs]; exact hi⟩, by rw [← last_same h]; exact hc⟩

/-- **C93** for texts: `src` is accepted and its words are `u x v`; the words of `src'` read like `u w v`. -/
theorem c93_text {frames frames' framesU framesX : Nat} {ws src src' : Str} {u x v : List Token} {w : Token} {e' eu ex : Ers F}
    (hs : tokenizeList ws src = u ++ x ++ v) (hs' : (tokenizeList ws src').map (·.text) = (u ++ w :: v).map (·.text))
    (h : parseF15 frames (Ers.new : Ers F) ⟨tokenizeList ws src, 0⟩ = .ok (true, e'))
    (hu : parseF15 framesU (Ers.new : Ers F) ⟨u, 0⟩ = .ok (true, eu)) (hi : eu.elements.getLast?.map (·.rules) = some (py! "IFR"))
    (hc : u.getLast?.map (·.text) ≠ some (py! "C"))
    (hux : parseF15 framesX (Ers.new : Ers F) ⟨u ++ x, 0⟩ = .ok (true, ex)) (hix : ex.elements.getLast?.map (·.rules) = some (py! "IFR"))
    (hcx : (u ++ x).getLast?.map (·.text) ≠ some (py! "C"))
    (hx0 : x ≠ []) (hx : NoRemark x) (hv : NoRemark v)
    (hw : CannotCome u w) (hf : 4 * (u ++ w :: v).length ≤ frames') :
    ∃ f g w' r n, parseF15 frames' (Ers.new : Ers F) ⟨tokenizeList ws src', 0⟩ = .ok (false, f) ∧ f.elements.map noPlace = g.map noPlace ∧
      Lost (eu.elements.length - 1) (ex.elements.length - 1) x g e'.elements ∧
      (tokenizeList ws src')[u.length]? = some w' ∧ w'.text = w.text ∧ f.errors = [r] ∧ ErrorIs (assignSyntax w') n r := by
  rw [hs] at h
  -- the words of `src` give the elements
  obtain ⟨f0, -, -, a1, a2, -, -⟩ := c93 h hu hi hc hux hix hcx hx0 hx hv hw hf
  obtain ⟨f, b1, b2⟩ := same_words a1 hs'.symm
  -- the words of `src'` give the error
  rw [List.map_append, List.map_cons] at hs'
  obtain ⟨u', y, hy, hu', hy'⟩ := List.map_eq_append_iff.1 hs'
  obtain ⟨w', v', rfl, hw', hv'⟩ := List.map_eq_cons_iff.1 hy'
  obtain ⟨e1, h1, -⟩ := same_words (T' := u' ++ x ++ v') h (by simp [hu', hv'])
  obtain ⟨eu1, h2, h2'⟩ := same_words hu hu'.symm
  obtain ⟨ex1, h3, h3'⟩ := same_words (T' := u' ++ x) hux (by simp [hu'])
  have hlen : (u' ++ w' :: v').length = (u ++ w :: v).length := by
    have k1 := congrArg List.length hu'
    have k2 := congrArg List.length hv'
    simp only [List.length_map] at k1 k2
    simp [k1, k2]
  obtain ⟨f1, r, n, c1, -, c2, c3⟩ := c93 (frames' := frames') (w := w') h1 h2 (by rw [← lost_rules_same h2']; exact hi) (by rw [last_same hu']; exact hc)
    h3 (by rw [← lost_rules_same h3']; exact hix) (by rw [last_same (u' := u ++ x) (by simp [hu'])]; exact hcx) hx0 hx (noRemark_same hv'.symm hv)
    (cannotCome_same hu'.symm hw'.symm hw) (by rw [hlen]; exact hf)
  rw [hy] at b1 ⊢
  rw [c1] at b1
  cases b1
  refine ⟨f, f0.elements, w', r, n, c1, b2.symm, a2, ?_, hw', c2, c3⟩
  have k1 := congrArg List.length hu'
  simp only [List.length_map] at k1
  rw [← k1]; simp

theorem between2_same {ps : List Piece} : ∀ {u u' : List Token} {T : List Token}, Between2 F u ps → u.map (·.text) = u'.map (·.text) →
    T.map (·.text) = (ps.flatMap fun p => p.garbled :: p.behind).map (·.text) →
    ∃ ps', Between2 F u' ps' ∧ T = ps'.flatMap (fun p => p.garbled :: p.behind) ∧ ps'.length = ps.length ∧
      (u ++ ps.flatMap fun p => p.part ++ p.behind).map (·.text) = (u' ++ ps'.flatMap fun p => p.part ++ p.behind).map (·.text) ∧
      ∀ (i : Nat) (p p' : Piece), ps[i]? = some p → ps'[i]? = some p' → p'.part = p.part ∧ p'.garbled.text = p.garbled.text ∧ p'.behind.length = p.behind.length := by
  induction ps with
  | nil =>
    intro u u' T _ h hT
    obtain rfl : T = [] := by simpa using hT
    exact ⟨[], .nil _, rfl, rfl, by simpa using h, by intro i p p' h; simp at h⟩
  | cons p ps ih =>
    intro u u' T hb h hT
    obtain ⟨x, w, v⟩ := p
    cases hb with
    | cons before after_ some_ hx hv hw apart rest =>
    dsimp only at after_ some_ hx hv hw apart rest
    rw [List.flatMap_cons, List.cons_append, List.map_cons, List.map_append] at hT
    obtain ⟨w', T, rfl, hw', hT⟩ := List.map_eq_cons_iff.1 hT
    obtain ⟨v', T, rfl, hv', hT⟩ := List.map_eq_append_iff.1 hT
    have hv' : v'.map (·.text) = v.map (·.text) := hv'
    obtain ⟨ps', k1, k2, k3, k4, k5⟩ := ih (u' := u' ++ x ++ v') rest (by simp [h, hv']) hT
    refine ⟨⟨x, w', v'⟩ :: ps', .cons (resting_same h before) (resting_same (by simp [h]) after_) some_ hx (noRemark_same hv'.symm hv)
      (cannotCome_same h hw'.symm hw) ?_ k1, ?_, ?_, ?_, ?_⟩
    · rcases apart with h | h
      · exact .inl fun h' => h ((texts_nil hv').1 h')
      · right; subst h; exact List.length_eq_zero_iff.1 k3
    · rw [List.flatMap_cons, ← k2]; rfl
    · simp [k3]
    · have e1 : ∀ (u : List Token) (p : Piece) (ps : List Piece), u ++ List.flatMap (fun p => p.part ++ p.behind) (p :: ps) =
          u ++ p.part ++ p.behind ++ List.flatMap (fun p => p.part ++ p.behind) ps := by intro u p ps; simp
      rw [e1, e1]; exact k4
    · intro i p p' h1 h2
      cases i with
      | zero =>
        cases h1; cases h2
        exact ⟨rfl, hw', by have := congrArg List.length hv'; simpa using this⟩
      | succ i => exact k5 i p p' (by simpa using h1) (by simpa using h2)

/-- **C94** for texts: `src` is accepted and its words are the correct ones; the words of `src'` read like the garbled ones. -/
theorem c94_text {frames frames' : Nat} {ws src src' : Str} {u : List Token} {ps : List Piece} {e' : Ers F}
    (hs : tokenizeList ws src = correct u ps) (hs' : (tokenizeList ws src').map (·.text) = (torn u ps).map (·.text))
    (h : parseF15 frames (Ers.new : Ers F) ⟨tokenizeList ws src, 0⟩ = .ok (true, e'))
    (hp : Between2 F u ps) (hne : ps ≠ []) (hf : 4 * (torn u ps).length ≤ frames') :
    ∃ f g, parseF15 frames' (Ers.new : Ers F) ⟨tokenizeList ws src', 0⟩ = .ok (false, f) ∧ f.elements.map noPlace = g.map noPlace ∧
      Missing (ps.map (·.part)) g e'.elements ∧ f.errors.length = ps.length ∧
      ∀ (i : Nat) (p : Piece) (r : Record F), ps[i]? = some p → f.errors[i]? = some r →
        ∃ w' n, (tokenizeList ws src')[(torn u (ps.take i)).length]? = some w' ∧ w'.text = p.garbled.text ∧ ErrorIs (assignSyntax w') n r := by
  rw [hs] at h
  obtain ⟨f0, a1, a2, -, -⟩ := c94 h hp hne hf
  obtain ⟨f, b1, b2⟩ := same_words a1 hs'.symm
  have hs'0 := hs'
  unfold torn at hs'
  rw [List.map_append] at hs'
  obtain ⟨u', T, hT, hu', hT'⟩ := List.map_eq_append_iff.1 hs'
  obtain ⟨ps', k1, rfl, k3, k4, k5⟩ := between2_same hp hu'.symm hT'
  obtain ⟨e1, h1, -⟩ := same_words (T' := correct u' ps') h k4
  have hlen : (torn u' ps').length = (torn u ps).length := by
    have := congrArg List.length hs'0
    rw [hT] at this
    simpa [torn] using this
  obtain ⟨f1, c1, -, c3, c4⟩ := c94 (frames' := frames') h1 k1 (by rintro rfl; exact hne (List.length_eq_zero_iff.1 k3.symm)) (by rw [hlen]; exact hf)
  rw [hT] at b1 ⊢
  have c1' : parseF15 frames' (Ers.new : Ers F) ⟨u' ++ ps'.flatMap (fun p => p.garbled :: p.behind), 0⟩ = .ok (false, f1) := c1
  rw [c1'] at b1
  cases b1
  refine ⟨f, f0.elements, c1', b2.symm, a2, by rw [c3, k3], ?_⟩
  intro i p r hi hr
  have hlt : i < ps'.length := by rw [k3]; exact (List.getElem?_eq_some_iff.1 hi).1
  have hp' : ps'[i]? = some ps'[i] := List.getElem?_eq_getElem hlt
  obtain ⟨n, hn⟩ := c4 i _ r hp' hr
  refine ⟨ps'[i].garbled, n, ?_, (k5 i p _ hi hp').2.1, hn⟩
  -- where it stands
  have hl : ∀ j, j ≤ ps.length → (torn u (ps.take j)).length = (torn u' (ps'.take j)).length := by
    intro j
    induction j with
    | zero => intro _; have := congrArg List.length hu'; simp only [List.length_map] at this; simp [torn, this]
    | succ j ih =>
      intro hj
      have ih := ih (by omega)
      have g1 : ps[j]? = some ps[j] := List.getElem?_eq_getElem (by omega)
      have g2 : ps'[j]? = some (ps'[j]'(by omega)) := List.getElem?_eq_getElem (by omega)
      have := (k5 j _ _ g1 g2).2.2
      rw [List.take_add_one, List.take_add_one, g1, g2]
      unfold torn at ih ⊢
      simp only [Option.toList_some, List.flatMap_append, List.flatMap_cons, List.flatMap_nil, List.length_append, List.length_cons, List.length_nil] at ih ⊢
      omega
  rw [hl i (by omega)]
  have hsplit : u' ++ ps'.flatMap (fun p => p.garbled :: p.behind) =
      torn u' (ps'.take i) ++ (ps'[i].garbled :: (ps'[i].behind ++ (ps'.drop (i + 1)).flatMap fun p => p.garbled :: p.behind)) := by
    unfold torn
    have e : ps' = ps'.take i ++ ps'[i] :: ps'.drop (i + 1) := by rw [← List.drop_eq_getElem_cons hlt, List.take_append_drop]
    have e2 : ps'.flatMap (fun p => p.garbled :: p.behind) = (ps'.take i ++ ps'[i] :: ps'.drop (i + 1)).flatMap (fun p => p.garbled :: p.behind) :=
      congrArg (List.flatMap fun p : Piece => p.garbled :: p.behind) e
    rw [e2]
    simp only [List.flatMap_append, List.flatMap_cons, List.append_assoc, List.cons_append]
  rw [hsplit]; simp

/-! ### Examples -/

theorem noRemark_of {l : List Token} (h : (l.head?.map fun t => decide ((assignSyntax t).base ≠ .SLASH ∧ (assignSyntax t).base ≠ .STAY)) ≠ some false) : NoRemark l := by
  intro t ht
  rw [ht] at h
  simpa using h

/-- PNT becomes `P?T`; of `DEF/N0400F330 DCT` behind `UL8 ABC DCT` only a second DCT is left. -/
example : ∃ e' f : Ers Rat, ∃ r1 r2 w1 w2,
    parseF15 100 Ers.new ⟨tokenizeList f15Whitespace (py! "N0450F350 LNZ UL856 PNT UL8 ABC DCT DEF/N0400F330 DCT 46N050W STAR"), 0⟩ = .ok (true, e') ∧
    parseF15 100 Ers.new ⟨tokenizeList f15Whitespace (py! "N0450F350  LNZ UL856 P?T UL8\tABC DCT DCT 46N050W STAR"), 0⟩ = .ok (false, f) ∧
    f.errors = [r1, r2] ∧
    (tokenizeList f15Whitespace (py! "N0450F350  LNZ UL856 P?T UL8\tABC DCT DCT 46N050W STAR"))[3]? = some w1 ∧ (∃ n, ErrorIs (assignSyntax w1) n r1) ∧
    (tokenizeList f15Whitespace (py! "N0450F350  LNZ UL856 P?T UL8\tABC DCT DCT 46N050W STAR"))[7]? = some w2 ∧ (∃ n, ErrorIs (assignSyntax w2) n r2) := by
  generalize hT : tokenizeList f15Whitespace (py! "N0450F350 LNZ UL856 PNT UL8 ABC DCT DEF/N0400F330 DCT 46N050W STAR") = T
  have hTt : T.map (·.text) = [py! "N0450F350", py! "LNZ", py! "UL856", py! "PNT", py! "UL8", py! "ABC", py! "DCT", py! "DEF", py! "/", py! "N0400F330", py! "DCT",
      py! "46N050W", py! "STAR"] := by rw [← hT]; decide +kernel
  have hlen : T.length = 13 := by have := congrArg List.length hTt; simpa using this
  have hacc : ((parseF15 100 (Ers.new : Ers Rat) ⟨T, 0⟩).toOption.map (·.1)) = some true := by rw [← hT]; decide +kernel
  have rest : ∀ n : Nat, n ∈ [3, 4, 7, 11] → Resting Rat (T.take n) := by
    intro n hn
    rw [← hT]
    simp only [List.mem_cons, List.not_mem_nil, or_false] at hn
    rcases hn with rfl | rfl | rfl | rfl <;> exact resting_of (n := 100) (by decide +kernel) (by decide +kernel)
  cases h : parseF15 100 (Ers.new : Ers Rat) ⟨T, 0⟩ with
  | error => rw [h] at hacc; simp [Except.toOption] at hacc
  | ok y =>
  obtain ⟨b, e'⟩ := y
  rw [h] at hacc
  simp only [Except.toOption, Option.map_some, Option.some.injEq] at hacc
  subst hacc
  have q1 : T.take 4 = T.take 3 ++ (T.drop 3).take 1 := by rw [← hT]; decide +kernel
  have q2 : T.take 7 = T.take 3 ++ (T.drop 3).take 1 ++ (T.drop 4).take 3 := by rw [← hT]; decide +kernel
  have q3 : T.take 11 = T.take 3 ++ (T.drop 3).take 1 ++ (T.drop 4).take 3 ++ (T.drop 7).take 4 := by rw [← hT]; decide +kernel
  have hs : T = correct (T.take 3) [⟨(T.drop 3).take 1, exTok (py! "P?T"), (T.drop 4).take 3⟩, ⟨(T.drop 7).take 4, exTok (py! "DCT"), T.drop 11⟩] := by
    rw [← hT]; decide +kernel
  have r3 := rest 3 (by decide)
  have r4 := rest 4 (by decide)
  have r7 := rest 7 (by decide)
  have r11 := rest 11 (by decide)
  have hp : Between2 Rat (T.take 3) [⟨(T.drop 3).take 1, exTok (py! "P?T"), (T.drop 4).take 3⟩, ⟨(T.drop 7).take 4, exTok (py! "DCT"), T.drop 11⟩] := by
    refine .cons r3 (by rw [← q1]; exact r4) (by rw [← hT]; decide +kernel) ?_ ?_ (.inl (by unfold Stray; dsimp only; decide +kernel)) (.inl (by rw [← hT]; decide +kernel))
      (.cons (by rw [← q2]; exact r7) (by dsimp only; rw [← q3]; exact r11) (by rw [← hT]; decide +kernel) ?_ ?_ (.inr ⟨?_, by dsimp only; decide +kernel, by dsimp only; decide +kernel⟩) (.inr rfl) (.nil _))
    · exact noRemark_of (by rw [← hT]; decide +kernel)
    · exact noRemark_of (by rw [← hT]; decide +kernel)
    · exact noRemark_of (by rw [← hT]; decide +kernel)
    · exact noRemark_of (by rw [← hT]; decide +kernel)
    · rw [← q2]
      obtain ⟨⟨n, e, he, hi⟩, hc⟩ := r7
      cases ho : (T.take 7).getLast? with
      | none => exact absurd ho (by rw [← hT]; decide +kernel)
      | some o =>
        have ho' : (assignSyntax o).base = .DCT := by
          have : ((T.take 7).getLast?.map fun o => (assignSyntax o).base) = some .DCT := by rw [← hT]; decide +kernel
          rw [ho] at this
          simpa using this
        exact (c86_which (F := Rat) (.inr ⟨⟨e, he, hi⟩, hc⟩) ho).1 (by rw [ho']; decide) (by dsimp only; decide +kernel)
  obtain ⟨f, g, k1, -, -, k3, k4⟩ := c94_text (frames' := 100) (ws := f15Whitespace)
    (src := (py! "N0450F350 LNZ UL856 PNT UL8 ABC DCT DEF/N0400F330 DCT 46N050W STAR"))
    (src' := (py! "N0450F350  LNZ UL856 P?T UL8\tABC DCT DCT 46N050W STAR")) (by rw [hT]; exact hs) (by rw [← hT]; decide +kernel) (by rw [hT]; exact h) hp (by simp)
    (by rw [← hT]; decide +kernel)
  obtain ⟨r1, r2, hE⟩ := two_of k3
  rw [hE] at k4
  obtain ⟨w1, n1, a1, -, a2⟩ := k4 0 _ r1 List.getElem?_cons_zero List.getElem?_cons_zero
  obtain ⟨w2, n2, b1, -, b2⟩ := k4 1 _ r2 (List.getElem?_cons_succ.trans List.getElem?_cons_zero) (List.getElem?_cons_succ.trans List.getElem?_cons_zero)
  exact ⟨e', f, r1, r2, w1, w2, rfl, k1, hE, by simpa [torn, hlen] using a1, ⟨n1, a2⟩, by simpa [torn, hlen] using b1, ⟨n2, b2⟩⟩

end F15
