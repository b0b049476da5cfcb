import Verif.Lemmas.Fold
import Verif.Props.Grammar
/-!
# Accepted field 15s: C24, C25, C26, C37, C38, C39, C42, C45, C46

`roles` of `Spec/Story.lean` reads the tokens of an accepted field 15 and says what each of them is. Here the elements
of the extracted route are described in terms of it. In each statement `roles … = before ++ m :: after` singles out one token
`m` with its role, and `elementCount before + 1` is the index of its element (index 0 is the ADEP).
-/

namespace F15
open Spec

set_option linter.unusedSectionVars false
variable {F : Type} [PyFloat F]

/-- An accepted example with a SID, level change, stay, cruise climb, VFR part and STAR. -/
def sampleText : Str :=
  py! "N0450F350 LNZ1A LNZ UL856 PNT/N0460F360 STAY1/0130 DCT 46N050W C/51N050W/N0450F290F350 VFR ABC IFR XYZ/N0450F350 DCT PNT ALB1A"

theorem sample_accepted : ∃ e : Ers Rat, parseText sampleText = .ok (true, e) := by
  have h : check sampleText (fun b _ => b) = true := by decide +kernel
  obtain ⟨b, e, h1, h2⟩ := check_ok h
  subst h2
  exact ⟨e, h1⟩

/-! ### The roles exhaust the tokens -/

/-- The roles are those of the tokens, in order. -/
theorem c46_tokens (tokens : Tokens) : (roles (typedTokens tokens)).map (·.1) = typedTokens tokens := roles_tokens _

/-- The numbers do not matter. -/
theorem c46_lawful {tokens : Tokens} {e : Ers F} (h : Lawful tokens e) :
    e.elements.length = elementCount (roles (typedTokens tokens)) + 2 ∧
    ∀ before m after, roles (typedTokens tokens) = before ++ m :: after → m.2.isElement = true →
      ∃ r, e.elements[elementCount before + 1]? = some r ∧ RoleElement m r := by
  have ht := told h
  refine ⟨ht.len, fun before m after hr hm => ?_⟩
  obtain ⟨r, h1, h2⟩ := ht.elem before m after hr hm
  refine ⟨r, h1, ?_⟩
  obtain ⟨u1, u2, u3, u4, u5, -⟩ := unplace_fields r
  obtain ⟨f1, f2, f3, f4, f5, -⟩ := final_fields (cur (F := F) newAdep (before ++ m :: about after)) after
  have h3 : cur (F := F) newAdep (before ++ m :: about after) = cur (stepRec (cur newAdep before) m) (about after) := by
    rw [cur_append]; rfl
  obtain ⟨g1, g2, g3, g4, g5⟩ := (cur_tweak (stepRec (cur (F := F) newAdep before) m) (l := about after) fun _ => about_not).fields
  obtain ⟨s1, s2, s3, s4, s5, -⟩ := step_element (cur (F := F) newAdep before) hm
  rw [h2] at u1 u2 u3 u4 u5
  rw [h3] at f1 f2 f3 f4 f5
  refine ⟨?_, ?_, ?_, ?_, ?_⟩
  · rw [← u2, h3, f2, g2, s1]
  · rw [← u3, h3, f3, g3, s2]
  · rw [← u1, h3, f1, g1, s3]
  · rw [← u4, h3, f4, g4, s4]
  · rw [← u5, h3, f5, g5, s5]

/-- **C46** In an accepted field 15 the elements between ADEP and ADES are exactly those of the tokens that are elements, in order. -/
theorem c46 {frames : Nat} {tokens : Tokens} {e : Ers F} (h : parseF15 frames Ers.new tokens = .ok (true, e)) :
    e.elements.length = elementCount (roles (typedTokens tokens)) + 2 ∧
    ∀ before m after, roles (typedTokens tokens) = before ++ m :: after → m.2.isElement = true →
      ∃ r, e.elements[elementCount before + 1]? = some r ∧ RoleElement m r :=
  c46_lawful (lawful h)

/-- The roles of a sample. -/
example : (roles (typedTokens ⟨tokenizeList f15Whitespace (py! "N0450F350 PNT/N0460VFR ABC IFR XYZ/N0450F350 C/PNT/N0450F290PLUS T"), 0⟩)).map (·.2) =
    [.note, .head, .note, .head, .word, .word, .head, .note, .note, .note, .note, .slot, .note, .note, .note] := by decide +kernel

/-! ### C24 -/

theorem well_tail_all {m : Token × Role} {l : List (Token × Role)} (h : WellAll (m :: l)) :
    ∃ p, Well p l ∧ (p = .start ∨ p = .text) := by
  cases h with
  | ifr hb _ h => exact ⟨_, h, .inl rfl⟩
  | vfr hb h => exact ⟨_, h, .inr rfl⟩

theorem well_last {p : Spot} {m : Token × Role} {after : List (Token × Role)} (h : Well p (m :: after)) :
    (m.2 = .star → after = []) ∧ (m.2 = .sid → p = .start) ∧ (m.2 = .note → m.1.base = .TRUNCATE → after = []) ∧
    (m.2 = .head → m.1.base ∉ [BaseType.SID, .STAR, .SID_STAR, .TRUNCATE]) ∧
    (m.2 = .note → m.1.base ∉ [BaseType.SID, .STAR, .SID_STAR]) ∧
    (m.2 = .sid → m.1.base = .SID ∨ m.1.base = .SID_STAR) ∧ (m.2 = .star → m.1.base = .STAR ∨ m.1.base = .SID_STAR) := by
  cases h with
  | word => simp
  | note hp hb ht h => exact ⟨by simp, by simp, fun _ => ht, by simp, by simp [noteBases] at hb ⊢; rcases hb with h | h | h | h | h | h <;> simp [h], by simp, by simp⟩
  | sid hb h => exact ⟨by simp, by simp, by simp, by simp, by simp, fun _ => hb, by simp⟩
  | star hp hb => exact ⟨by simp, by simp, by simp, by simp, by simp, by simp, fun _ => hb⟩
  | slot => simp
  | slash hb => simp [hb]
  | levels hb => rcases hb with ⟨hb, _⟩ | hb <;> simp [hb]
  | point hp hb => simp [hb]
  | plain hp hb => rcases hb with hb | hb | hb <;> simp [hb]
  | brk hp hb => rcases hb with hb | hb <;> simp [hb]

/-- What holds of a token that is not the first. -/
theorem role_last {ts : List Token} (hw : WellAll (roles ts)) {before after : List (Token × Role)} {m : Token × Role}
    (hr : roles ts = before ++ m :: after) :
    (m.2 = .star → after = []) ∧ (m.2 = .sid → before.length = 1) ∧ (m.2 = .note → m.1.base = .TRUNCATE → after = []) ∧
    (m.2 = .head → m.1.base ∉ [BaseType.SID, .STAR, .SID_STAR, .TRUNCATE]) ∧
    (m.2 = .note → m.1.base ∉ [BaseType.SID, .STAR, .SID_STAR]) ∧
    (m.2 = .sid → m.1.base = .SID ∨ m.1.base = .SID_STAR) ∧ (m.2 = .star → m.1.base = .STAR ∨ m.1.base = .SID_STAR) := by
  cases before with
  | nil =>
    rw [hr] at hw
    cases hw with
    | ifr hb => simp [hb]
    | vfr hb => simp [hb]
  | cons x before =>
    rw [hr, List.cons_append] at hw
    obtain ⟨p, h, hp⟩ := well_tail_all hw
    obtain ⟨h1, h2, h3, h4, h5, h6, h7⟩ := well_last h.drop
    refine ⟨h1, fun hs => ?_, h3, h4, h5, h6, h7⟩
    have := spot_start h (h2 hs)
    rw [this]; rfl

/-- **C24** In an accepted field 15, outside free text and the free slot of a cruise climb, a SID is the second token,
a STAR the last, a token that may be either is one of the two, and the truncation indicator is last. -/
theorem c24_tokens {frames : Nat} {tokens : Tokens} {e : Ers F} (h : parseF15 frames Ers.new tokens = .ok (true, e))
    {before after : List (Token × Role)} {t : Token} {o : Role} (hr : roles (typedTokens tokens) = before ++ (t, o) :: after)
    (ho : o ≠ .word) (ho' : o ≠ .slot) :
    (t.base = .SID → before.length = 1) ∧ (t.base = .STAR → after = []) ∧
    (t.base = .SID_STAR → before.length = 1 ∨ after = []) ∧ (t.base = .TRUNCATE → after = []) := by
  obtain ⟨h1, h2, h3, h4, h5, h6, h7⟩ := role_last (told (lawful h)).well hr
  dsimp only at *
  cases o with
  | word => exact absurd rfl ho
  | slot => exact absurd rfl ho'
  | head =>
    have := h4 rfl
    simp only [List.mem_cons, List.not_mem_nil, or_false, not_or] at this
    exact ⟨fun h => absurd h this.1, fun h => absurd h this.2.1, fun h => absurd h this.2.2.1, fun h => absurd h this.2.2.2⟩
  | note =>
    have := h5 rfl
    simp only [List.mem_cons, List.not_mem_nil, or_false, not_or] at this
    exact ⟨fun h => absurd h this.1, fun h => absurd h this.2.1, fun h => absurd h this.2.2, fun h => h3 rfl h⟩
  | sid =>
    have hl := h2 rfl
    refine ⟨fun _ => hl, fun h => ?_, fun _ => .inl hl, fun h => ?_⟩ <;> rcases h6 rfl with h' | h' <;> rw [h] at h' <;> cases h'
  | star =>
    have hl := h1 rfl
    exact ⟨fun h => by (rcases h7 rfl with h' | h' <;> rw [h] at h' <;> cases h'), fun _ => hl, fun _ => .inr hl, fun _ => hl⟩

/-- **C24** In the sequence of an accepted field 15, an element typed SID has index 1 and an element typed STAR is the last
before the ADES, unless it fills the free slot of a cruise climb. -/
theorem c24_elements {frames : Nat} {tokens : Tokens} {e : Ers F} (h : parseF15 frames Ers.new tokens = .ok (true, e))
    {i : Nat} {r : Record F} (hi : e.elements[i]? = some r) :
    (r.base = .SID → i = 1 ∨ ∃ before t after, roles (typedTokens tokens) = before ++ (t, .slot) :: after ∧ i = elementCount before + 1) ∧
    (r.base = .STAR → i + 2 = e.elements.length ∨
      ∃ before t after, roles (typedTokens tokens) = before ++ (t, .slot) :: after ∧ i = elementCount before + 1) := by
  have ht := told (lawful h)
  have hlen := ht.len
  have hlt : i < e.elements.length := (List.getElem?_eq_some_iff.1 hi).1
  by_cases h0 : i = 0
  · subst h0
    obtain ⟨t, r', _, h1, h2⟩ := ht.adep
    rw [hi] at h1; cases h1
    have hb : r.base = .POINT := by
      obtain ⟨u1, u2, u3, u4, u5, -⟩ := unplace_fields r
      rw [← u4, h2]
      obtain ⟨f1, f2, f3, f4, f5, -⟩ := final_fields (cur (F := F) newAdep (about (roles (typedTokens tokens)))) (roles (typedTokens tokens))
      obtain ⟨g1, g2, g3, g4, g5⟩ := (cur_tweak (newAdep (F := F)) (l := about (roles (typedTokens tokens))) fun _ => about_not).fields
      have : ((if t.base = .SPEED_VFR then toVfr else id) (finalRec (cur (F := F) newAdep (about (roles (typedTokens tokens))))
        (roles (typedTokens tokens)))).base = (finalRec (cur (F := F) newAdep (about (roles (typedTokens tokens)))) (roles (typedTokens tokens))).base := by
        split <;> rfl
      rw [this, f4, g4]; rfl
    constructor <;> intro h <;> rw [hb] at h <;> cases h
  · by_cases hl : i = elementCount (roles (typedTokens tokens)) + 1
    · obtain ⟨r', l, h1, _, h3⟩ := ht.ades
      rw [← hl, hi] at h1; cases h1
      constructor <;> intro h <;> rw [h3] at h <;> cases h
    · obtain ⟨before, m, after, hr, hm, hc⟩ := split_at (roles (typedTokens tokens)) (i - 1) (by omega)
      obtain ⟨r', h1, h2⟩ := (c46 h).2 before m after hr hm
      rw [hc, show i - 1 + 1 = i by omega, hi] at h1
      cases h1
      obtain ⟨t, o⟩ := m
      obtain ⟨k1, k2, k3, k4, k5, k6, k7⟩ := role_last ht.well hr
      have hb := h2.2.2.2.1
      dsimp only at *
      have hcnt : elementCount (before ++ (t, o) :: after) = elementCount before + 1 + elementCount after := by
        rw [count_append, count_cons_el _ hm]; omega
      rw [hr, hcnt] at hlen
      cases o with
      | word | note => cases hm
      | slot => exact ⟨fun _ => .inr ⟨before, t, after, hr, by omega⟩, fun _ => .inr ⟨before, t, after, hr, by omega⟩⟩
      | head =>
        simp at hb
        have := k4 rfl
        rw [hb]
        simp only [List.mem_cons, List.not_mem_nil, or_false, not_or] at this
        exact ⟨fun h => absurd h this.1, fun h => absurd h this.2.1⟩
      | sid =>
        simp at hb
        refine ⟨fun _ => .inl ?_, fun h => by rw [hb] at h; cases h⟩
        have hb1 := k2 rfl
        obtain ⟨x, hx⟩ := List.length_eq_one_iff.1 hb1
        subst hx
        -- the first token is a note, since a SID cannot follow SPEED/VFR
        have hw := ht.well
        rw [hr] at hw
        obtain ⟨x1, x2⟩ := x
        have hx2 : x2 = .note := by
          cases hw with
          | ifr => rfl
          | vfr hb h => cases h
        have : elementCount [(x1, x2)] = 0 := by rw [hx2]; rfl
        omega
      | star =>
        simp at hb
        refine ⟨fun h => (by rw [hb] at h; cases h), fun _ => .inl ?_⟩
        have := k1 rfl
        subst this
        have h0 : elementCount ([] : List (Token × Role)) = 0 := rfl
        omega

/-! ### C25 -/

/-- The numbers do not matter. -/
theorem c25_accepted_lawful {tokens : Tokens} {e : Ers F} (h : Lawful tokens e) :
    (∀ before m after, roles (typedTokens tokens) = before ++ m :: after → m.2.isElement = true →
      ∃ r, e.elements[elementCount before + 1]? = some r ∧ r.rules = elementRules m) ∧
    (∃ t r, (typedTokens tokens).head? = some t ∧ e.elements[0]? = some r ∧
      r.rules = if t.base = .SPEED_VFR then py! "VFR" else py! "IFR") ∧
    (∃ r l, e.elements[elementCount (roles (typedTokens tokens)) + 1]? = some r ∧
      e.elements[elementCount (roles (typedTokens tokens))]? = some l ∧ r.rules = l.rules) := by
  have ht := told h
  have hall : ∀ m ∈ roles (typedTokens tokens), Typed m.1 := by
    intro m hm
    apply ht.typed
    have : m.1 ∈ (roles (typedTokens tokens)).map (·.1) := List.mem_map.2 ⟨m, hm, rfl⟩
    rw [roles_tokens] at this
    exact this
  refine ⟨fun before m after hr hm => ?_, ?_, ?_⟩
  · obtain ⟨r, h1, h2⟩ := ht.elem before m after hr hm
    refine ⟨r, h1, ?_⟩
    have hr' : r.rules = (cur (F := F) newAdep (before ++ m :: about after)).rules := by
      obtain ⟨-, -, -, -, -, -, -, u, -⟩ := unplace_fields r
      rw [← u, h2]
      exact (final_fields _ _).2.2.2.2.2.1
    rw [hr', cur_append, cur_cons]
    have hw := ht.well
    -- the state when m is read
    have key : ∃ p, Well p (m :: after) ∧ (p ≠ .text → (cur (F := F) newAdep before).rules = py! "IFR") ∨
        (before = [] ∧ Well .text after ∧ m.1.base = .SPEED_VFR ∧ m.2 = .head) := by
      cases before with
      | nil =>
        rw [hr] at hw
        cases hw with
        | ifr => cases hm
        | vfr hb h => exact ⟨.text, .inr ⟨rfl, h, hb, rfl⟩⟩
      | cons x before =>
        rw [hr, List.cons_append] at hw
        have hx := hall x (by rw [hr]; simp)
        have hbf : ∀ y ∈ before, Typed y.1 := fun y hy => hall y (by rw [hr]; simp [hy])
        cases hw with
        | @ifr t l hb hne h =>
          refine ⟨spotAfter .start before, .inl ⟨h.drop, fun hs => ?_⟩⟩
          rw [cur_cons]
          exact cur_rules h hbf _ (fun _ => by simp [stepRec, hb]; rfl) hs
        | @vfr t l hb h =>
          refine ⟨spotAfter .text before, .inl ⟨h.drop, fun hs => ?_⟩⟩
          rw [cur_cons]
          exact cur_rules h hbf _ (fun h => absurd rfl h) hs
    have hab : ∀ y ∈ about after, Typed y.1 := by
      intro y hy
      refine hall y ?_
      rw [hr]
      have : y ∈ after := (List.takeWhile_sublist _).subset hy
      simp [this]
    have hsplit : after = about after ++ after.dropWhile (!·.2.isElement) := (List.takeWhile_append_dropWhile).symm
    obtain ⟨p, hk⟩ := key
    rcases hk with ⟨hw', hp⟩ | ⟨rfl, hw', hb, hh⟩
    · have hT := hall m (by rw [hr]; simp)
      have hs := step_rules hw' hT _ hp
      have hw2 := hw'.tail
      rw [hsplit] at hw2
      rw [cur_rules_about hw2 hab (fun _ => about_not) _ hs.2.2, hs.1 hm]
    · obtain ⟨t, o⟩ := m
      dsimp only at hb hh
      subst hh
      rw [hsplit] at hw'
      rw [cur_rules_about hw' hab (fun _ => about_not) _ (fun h => absurd rfl h)]
      simp [stepRec, elementRules, hb]; rfl
  · obtain ⟨t, r, h1, h2, h3⟩ := ht.adep
    refine ⟨t, r, h1, h2, ?_⟩
    obtain ⟨-, -, -, -, -, -, -, u, -⟩ := unplace_fields r
    rw [← u, h3]
    split
    · rfl
    · rename_i hn
      show (finalRec _ _).rules = _
      rw [(final_fields _ _).2.2.2.2.2.1]
      have hw := ht.well
      cases hts : typedTokens tokens with
      | nil => rw [hts] at h1; cases h1
      | cons t' rest =>
        rw [hts] at h1; cases h1
        rw [hts] at hw hall
        have hro : roles (t :: rest) = (t, .note) :: mark (.route true) rest := by
          unfold roles; dsimp only; rw [if_neg hn]
        rw [hro] at hw hall ⊢
        cases hw with
        | ifr hb hne h =>
          have hab : about ((t, .note) :: mark (.route true) rest) = (t, .note) :: about (mark (.route true) rest) :=
            about_append (b := [(t, .note)]) (by simp [Role.isElement])
          rw [hab, cur_cons]
          have hsplit : mark (.route true) rest = about (mark (.route true) rest) ++ (mark (.route true) rest).dropWhile (!·.2.isElement) :=
            (List.takeWhile_append_dropWhile).symm
          rw [hsplit] at h
          rw [cur_rules_about h (fun y hy => hall y (by
            have : y ∈ mark (.route true) rest := (List.takeWhile_sublist _).subset hy
            simp [this])) (fun _ => about_not) _ (fun _ => by simp [stepRec, hb]; rfl)]
          simp [stepRec, hb]; rfl
  · obtain ⟨r, l, h1, h2, h3⟩ := ht.ades
    exact ⟨r, l, h1, h2, by rw [h3]; rfl⟩

/-- **C25** In an accepted field 15 the element of VFR, OAT, IFPSTOP carries its own rules, that of SPEED/VFR is VFR, every other
one is IFR. The ADEP is VFR if field 15 starts with SPEED/VFR, else IFR; the ADES has the rules of the element before it. -/
theorem c25_accepted {frames : Nat} {tokens : Tokens} {e : Ers F} (h : parseF15 frames Ers.new tokens = .ok (true, e)) :
    (∀ before m after, roles (typedTokens tokens) = before ++ m :: after → m.2.isElement = true →
      ∃ r, e.elements[elementCount before + 1]? = some r ∧ r.rules = elementRules m) ∧
    (∃ t r, (typedTokens tokens).head? = some t ∧ e.elements[0]? = some r ∧
      r.rules = if t.base = .SPEED_VFR then py! "VFR" else py! "IFR") ∧
    (∃ r l, e.elements[elementCount (roles (typedTokens tokens)) + 1]? = some r ∧
      e.elements[elementCount (roles (typedTokens tokens))]? = some l ∧ r.rules = l.rules) :=
  c25_accepted_lawful (lawful h)

end F15
