import Verif.Lemmas.Connect
import Verif.Props.Accepted
/-!
# C59: points and connectors of an accepted route

The README says that a route without errors is "a sequence of points connected by a connector". `Spec/Connect.lean` says which
elements may be neighbours.
-/

namespace F15
open Spec

set_option linter.unusedSectionVars false
variable {F : Type} [PyFloat F]

theorem told_nb {frames : Nat} {tokens : Tokens} {e : Ers F} (h : parseF15 frames Ers.new tokens = .ok (true, e)) :
    Nb none [] (roles (typedTokens tokens)) := by
  have hT : ∀ x ∈ tokens.toks.map assignSyntax, Typed x := fun x hx => typed_map hx
  rw [parse_eq] at h
  obtain ⟨t, rest, as, hts, hs, -⟩ := accepted (F := F) rfl rfl hT h
  exact sent_nb hs

/-- **C59** In an accepted field 15 two elements `m`, `m'` with no element between them are neighbours in the sequence, and `m'`
may follow `m`. -/
theorem c59 {frames : Nat} {tokens : Tokens} {e : Ers F} (h : parseF15 frames Ers.new tokens = .ok (true, e))
    {before mid after : List (Token × Role)} {m m' : Token × Role} (hr : roles (typedTokens tokens) = before ++ m :: mid ++ m' :: after)
    (hm : m.2.isElement = true) (hm' : m'.2.isElement = true) (hmid : ∀ x ∈ mid, x.2.isElement = false) :
    Joins m mid m' ∧ ∃ r r', e.elements[elementCount before + 1]? = some r ∧ e.elements[elementCount before + 2]? = some r' ∧
      RoleElement m r ∧ RoleElement m' r' := by
  have hn := told_nb h
  have hr1 : roles (typedTokens tokens) = before ++ m :: (mid ++ m' :: after) := by simp [hr]
  rw [hr1] at hn
  have h1 := (Nb.first (mid := []) hmid hm' (Nb.skip hm hn)).1
  rw [List.nil_append] at h1
  refine ⟨h1, ?_⟩
  obtain ⟨r, h2, h3⟩ := (c46 h).2 before m _ hr1 hm
  obtain ⟨r', h4, h5⟩ := (c46 h).2 (before ++ m :: mid) m' after (by simp [hr]) hm'
  rw [count_append, count_cons_el _ hm, count_zero hmid] at h4
  exact ⟨r, r', h2, h4, h3, h5⟩

/-- **C59** The first element of an accepted field 15, which comes directly after the ADEP, is a point, DCT, SID, STAR or SPEED/VFR. -/
theorem c59_first {frames : Nat} {tokens : Tokens} {e : Ers F} (h : parseF15 frames Ers.new tokens = .ok (true, e))
    {before after : List (Token × Role)} {m : Token × Role} (hr : roles (typedTokens tokens) = before ++ m :: after)
    (hm : m.2.isElement = true) (hb : ∀ x ∈ before, x.2.isElement = false) :
    kind m ∈ mayStart ∧ ∃ r, e.elements[1]? = some r ∧ RoleElement m r := by
  have hn := told_nb h
  rw [hr] at hn
  refine ⟨(Nb.first (mid := []) hb hm hn).1, ?_⟩
  obtain ⟨r, h2, h3⟩ := (c46 h).2 before m _ hr hm
  rw [count_zero hb] at h2
  exact ⟨r, h2, h3⟩

/-- The element with index `i` is the point of a cruise climb. -/
def Spec.InSlot (tokens : Tokens) (i : Nat) : Prop :=
  ∃ before t after, roles (typedTokens tokens) = before ++ (t, .slot) :: after ∧ i = elementCount before + 1

theorem split_two (l : List (Token × Role)) (k : Nat) (hk : k + 1 < elementCount l) :
    ∃ before m mid m' after, l = before ++ m :: mid ++ m' :: after ∧ m.2.isElement = true ∧ m'.2.isElement = true ∧
      (∀ x ∈ mid, x.2.isElement = false) ∧ elementCount before = k := by
  obtain ⟨before, m, rest, hl, hm, hc⟩ := split_at l k (by omega)
  have h2 : 0 < elementCount rest := by
    rw [hl, count_append, count_cons_el _ hm] at hk; omega
  obtain ⟨mid, m', after, hl2, hm', hc2⟩ := split_at rest 0 h2
  refine ⟨before, m, mid, m', after, by rw [hl, hl2]; simp, hm, hm', ?_, hc⟩
  intro x hx
  cases hxe : x.2.isElement with
  | false => rfl
  | true =>
    obtain ⟨a, b, rfl⟩ := List.append_of_mem hx
    rw [count_append, count_cons_el _ hxe] at hc2
    omega

/-- An element with its kind. -/
theorem role_kind {m : Token × Role} {r : Record F} (hm : m.2.isElement = true) (h : RoleElement m r) (hs : m.2 ≠ .slot) :
    r.base = kind m := by
  obtain ⟨t, o⟩ := m
  have := h.2.2.2.1
  cases o <;> simp_all [kind, Role.isElement]

/-- **C59** In the sequence of an accepted field 15, leaving out the ADEP, the ADES and the points of cruise climbs, the type of an
element and the type of the next one fit together. -/
theorem c59_types {frames : Nat} {tokens : Tokens} {e : Ers F} (h : parseF15 frames Ers.new tokens = .ok (true, e))
    {i : Nat} {r r' : Record F} (h0 : 0 < i) (hl : i + 2 < e.elements.length) (hi : e.elements[i]? = some r)
    (hi' : e.elements[i + 1]? = some r') :
    (¬ InSlot tokens i → ¬ InSlot tokens (i + 1) → r'.base ∈ mayFollow r.base) ∧
    (¬ InSlot tokens i → InSlot tokens (i + 1) → .POINT ∈ mayFollow r.base) ∧
    (InSlot tokens i → ¬ InSlot tokens (i + 1) → r'.base ∈ mayFollow .POINT) := by
  have hlen := (c46 h).1
  obtain ⟨before, m, mid, m', after, hr, hm, hm', hmid, hc⟩ := split_two (roles (typedTokens tokens)) (i - 1) (by omega)
  obtain ⟨hj, q, q', h1, h2, h3, h4⟩ := c59 h hr hm hm' hmid
  rw [hc, show i - 1 + 1 = i by omega, hi] at h1
  rw [hc, show i - 1 + 2 = i + 1 by omega, hi'] at h2
  cases h1; cases h2
  have hin : m.2 = .slot → InSlot tokens i := by
    intro hs
    exact ⟨before, m.1, mid ++ m' :: after, by rw [hr, ← hs]; simp, by omega⟩
  have hin' : m'.2 = .slot → InSlot tokens (i + 1) := by
    intro hs
    refine ⟨before ++ m :: mid, m'.1, after, by rw [hr, ← hs], ?_⟩
    rw [count_append, count_cons_el _ hm, count_zero hmid]; omega
  -- two elements with the same index are the same
  have same : ∀ {a b c d : List (Token × Role)} {x y : Token × Role}, a ++ x :: b = c ++ y :: d → x.2.isElement = true →
      y.2.isElement = true → elementCount a = elementCount c → x = y := by
    intro a b c d x y heq hx hy hcnt
    rcases List.append_eq_append_iff.1 heq with ⟨k, rfl, hk⟩ | ⟨k, rfl, hk⟩
    · cases k with
      | nil => simp at hk; exact hk.1
      | cons z k =>
        simp at hk
        rw [← hk.1, count_append, count_cons_el _ hx] at hcnt; omega
    · cases k with
      | nil => simp at hk; exact hk.1.symm
      | cons z k =>
        simp at hk
        rw [← hk.1, count_append, count_cons_el _ hy] at hcnt; omega
  have hout : InSlot tokens i → m.2 = .slot := by
    rintro ⟨b, t, a, hb, hbi⟩
    rw [hb] at hr
    have := same (x := (t, .slot)) (y := m) (c := before) (d := mid ++ m' :: after) (hr.trans (by simp)) rfl hm (by omega)
    rw [← this]
  have hout' : InSlot tokens (i + 1) → m'.2 = .slot := by
    rintro ⟨b, t, a, hb, hbi⟩
    rw [hb] at hr
    have := same (x := (t, .slot)) (y := m') (c := before ++ m :: mid) hr rfl hm'
      (by rw [count_append, count_cons_el _ hm, count_zero hmid]; omega)
    rw [← this]
  have hks : ∀ {m : Token × Role}, m.2 = .slot → kind m = .POINT := by
    rintro ⟨t, o⟩ h; simp only at h; subst h; rfl
  refine ⟨fun a b => ?_, fun a b => ?_, fun a b => ?_⟩
  · rw [role_kind hm h3 (fun h => a (hin h)), role_kind hm' h4 (fun h => b (hin' h))]
    exact hj.kinds
  · rw [role_kind hm h3 (fun h => a (hin h)), ← hks (hout' b)]
    exact hj.kinds
  · rw [role_kind hm' h4 (fun h => b (hin' h)), ← hks (hout a)]
    exact hj.kinds

/-- **C59** The element after a DCT or an ATS route is a point (possibly the ADES) or `C`, or it is the point of a cruise climb: two
connectors are never neighbours. -/
theorem c59_connector {frames : Nat} {tokens : Tokens} {e : Ers F} (h : parseF15 frames Ers.new tokens = .ok (true, e))
    {i : Nat} {r : Record F} (hi : e.elements[i]? = some r) (hb : r.base = .DCT ∨ r.base = .ROUTE) (hs : ¬ InSlot tokens i) :
    ∃ r', e.elements[i + 1]? = some r' ∧ (r'.base = .POINT ∨ r'.base = .C ∨ InSlot tokens (i + 1)) := by
  have hlen := (c46 h).1
  have hlt : i < e.elements.length := (List.getElem?_eq_some_iff.1 hi).1
  obtain ⟨adep, mid, ades, he, hd, hs'⟩ := c12 h
  have hne : ∀ {x : Record F} {s : Str}, Placeholder s x → x.base = .POINT := fun h => h.2.2.2.1
  have hL : e.elements.length = mid.length + 2 := by rw [he]; simp
  have h0 : i ≠ 0 := by
    rintro rfl
    rw [he] at hi
    simp at hi
    subst hi
    rw [hne hd] at hb
    rcases hb with h | h <;> cases h
  have hlast : e.elements[mid.length + 1]? = some ades := by rw [he]; simp
  have h1 : i ≠ mid.length + 1 := by
    rintro rfl
    rw [hlast] at hi
    cases hi
    rw [hne hs'] at hb
    rcases hb with h | h <;> cases h
  by_cases h2 : i + 1 = mid.length + 1
  · exact ⟨ades, by rw [h2]; exact hlast, .inl (hne hs')⟩
  · have h3 : i + 1 < e.elements.length := by omega
    refine ⟨e.elements[i + 1], List.getElem?_eq_getElem h3, ?_⟩
    by_cases hn : InSlot tokens (i + 1)
    · exact .inr (.inr hn)
    · have := (c59_types h (by omega) (by omega) hi (List.getElem?_eq_getElem h3)).1 hs hn
      rcases hb with hb | hb <;> rw [hb] at this <;> simp [mayFollow] at this <;> rcases this with h | h <;> simp [h]

/-- The neighbours in a sample with all kinds of elements. -/
example : check sampleText (fun b e => b && decide (e.elements.map (·.base) = [.POINT, .SID, .POINT, .ROUTE, .POINT, .DCT, .POINT, .POINT,
    .BREAK_START, .POINT, .DCT, .POINT, .STAR, .POINT])) = true := by decide +kernel

/-- Not every pair of points is connected, `C` alone can stand between two ATS routes, whatever fills the slot of a cruise climb can
follow a connector, and after a stay an ATS route leads away from coordinates. -/
theorem c59_exceptions :
    check (py! "N0450F350 AAA BBB") (fun b e => b && decide (e.elements.map (·.base) = [.POINT, .POINT, .POINT, .POINT])) = true ∧
    check (py! "N0450F350 AAA UL1 C UL2 BBB") (fun b e => b &&
      decide (e.elements.map (·.base) = [.POINT, .POINT, .ROUTE, .C, .ROUTE, .POINT, .POINT])) = true ∧
    check (py! "N0450F350 AAA UL1 C/UL2/N0450F290F350 BBB") (fun b e => b &&
      decide (e.elements.map (·.base) = [.POINT, .POINT, .ROUTE, .ROUTE, .POINT, .POINT])) = true ∧
    check (py! "N0450F350 46N050W STAY1/0130 UL1 BBB") (fun b e => b &&
      decide (e.elements.map (·.base) = [.POINT, .POINT, .ROUTE, .POINT, .POINT])) = true ∧
    check (py! "N0450F350 46N050W UL1 BBB") (fun b _ => !b) = true := by decide +kernel

end F15
