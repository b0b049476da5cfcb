import Verif.Props.Xml
import Verif.Props.Print
/-!
# C69: the XML output loses nothing

Two extracted route sequences with the same XML output are the same, up to decimals that are not printed.
-/

namespace F15
open Spec

set_option linter.unusedSectionVars false
variable {F : Type} [PyFloat F]

theorem strNat_inj {m n : Nat} (h : strNat m = strNat n) : m = n := by
  have := natVal_strNat m
  rw [h, natVal_strNat] at this
  exact (Option.some.inj this).symm

theorem strInt_inj {m n : Int} (h : strInt m = strInt n) : m = n := by
  have key : ∀ a b, '-' :: strNat a ≠ strNat b := by
    intro a b h
    have := strNat_digit b '-' (by rw [← h]; simp)
    exact absurd this (by decide)
  unfold strInt at h
  split at h <;> split at h
  · have := strNat_inj (List.cons.inj h).2; omega
  · exact absurd h (key _ _)
  · exact absurd h.symm (key _ _)
  · have := strNat_inj h; omega

theorem textNode_inj {s t : Str} (h : textNode s = textNode t) : s = t := by
  unfold textNode at h
  split at h <;> split at h
  · rename_i a b; rw [a, b]
  · cases h
  · cases h
  · simpa using h

theorem recordNode_inj {str : EnumStr} (hs : DistinctNames str) {k : Bool} {r q : Record F} (h : recordNode str k r = recordNode str k q) :
    SamePrinted r q ∧ (if k then r.errorText = q.errorText else r.breakText = q.breakText) := by
  unfold recordNode at h
  injection h with h1 h2 h3
  have hn := textNode_inj h3
  unfold recordAttrs at h2
  simp only [List.cons.injEq, Prod.mk.injEq, true_and, and_true] at h2
  obtain ⟨a1, a2, a3, a4, a5, a6, a7, a8, a9, a10, a11, a12, a13, a14, a15, a16, a17⟩ := h2
  refine ⟨⟨hn, strNat_inj a1, strNat_inj a2, hs.1 _ _ a3, hs.2 _ _ a4, a5, a7, a13, a11, strInt_inj a12, a6, a8, a14, a15, a16, a9, a10⟩, ?_⟩
  cases k
  · simpa using a17
  · simpa using a17

theorem map_record_inj {str : EnumStr} (hs : DistinctNames str) {k : Bool} : ∀ {l m : List (Record F)},
    l.map (recordNode str k) = m.map (recordNode str k) →
      l.length = m.length ∧ ∀ (i : Nat) r q, l[i]? = some r → m[i]? = some q →
        SamePrinted r q ∧ (if k then r.errorText = q.errorText else r.breakText = q.breakText)
  | [], [], _ => ⟨rfl, fun i r q h => by simp at h⟩
  | [], _ :: _, h => by cases h
  | _ :: _, [], h => by cases h
  | a :: l, b :: m, h => by
    obtain ⟨h1, h2⟩ := List.cons.inj h
    obtain ⟨h3, h4⟩ := map_record_inj hs h2
    refine ⟨by simp [h3], ?_⟩
    rintro (_ | i) r q hr hq
    · simp at hr hq; subst hr hq; exact recordNode_inj hs h1
    · exact h4 i r q (by simpa using hr) (by simpa using hq)

theorem map_record_length {str : EnumStr} {l : List (Record F)} {m : List (Record F)} {x : Node}
    (hx : ∀ a b, x ≠ .elem (py! "ers_record") a b) : l.map (recordNode str false) ≠ m.map (recordNode str false) ++ [x] := by
  intro h
  have : x ∈ l.map (recordNode str false) := by rw [h]; simp
  obtain ⟨r, _, hr⟩ := List.mem_map.1 this
  exact hx _ _ hr.symm

/-- **C69** The XML output loses nothing: if two extracted route sequences with plain texts have the same XML output, then they have the
same derived flight rules and as many elements and errors, and elements and errors with the same index agree in their texts, indices, types,
speeds, levels, flight rules, stay times, break texts and error texts, and in the printed digits of all numbers. -/
theorem c69 {str : EnumStr} (hf : PlainFormats F str) (hs : DistinctNames str) {e e' : Ers F}
    (h1 : ∀ r ∈ e.elements, PlainRecord r) (h2 : ∀ r ∈ e.errors, PlainRecord r) (h3 : Plain e.derived)
    (h1' : ∀ r ∈ e'.elements, PlainRecord r) (h2' : ∀ r ∈ e'.errors, PlainRecord r) (h3' : Plain e'.derived)
    (h : e.asXml str = e'.asXml str) :
    e.derived = e'.derived ∧ e.elements.length = e'.elements.length ∧ e.errors.length = e'.errors.length ∧
    (∀ (i : Nat) r q, e.elements[i]? = some r → e'.elements[i]? = some q → SamePrinted r q ∧ r.breakText = q.breakText) ∧
    (∀ (i : Nat) r q, e.errors[i]? = some r → e'.errors[i]? = some q → SamePrinted r q ∧ r.errorText = q.errorText) := by
  obtain ⟨n, k1, k2⟩ := c44_document hf h1 h2 h3
  obtain ⟨n', k1', k2'⟩ := c44_document hf h1' h2' h3'
  rw [h, k1'] at k1
  injection k1 with k1
  subst k1
  obtain ⟨kids, ha, hb⟩ := k2
  obtain ⟨kids', ha', hb'⟩ := k2'
  rw [ha] at ha'
  injection ha' with _ _ ha'
  subst ha'
  have fin : ∀ {l m : List (Record F)}, Node.elem (py! "derived_flight_rules") [] (textNode e.derived) :: l.map (recordNode str false) =
      Node.elem (py! "derived_flight_rules") [] (textNode e'.derived) :: m.map (recordNode str false) →
      e.derived = e'.derived ∧ l.length = m.length ∧
      (∀ (i : Nat) r q, l[i]? = some r → m[i]? = some q → SamePrinted r q ∧ r.breakText = q.breakText) := by
    intro l m h
    obtain ⟨h1, h2⟩ := List.cons.inj h
    injection h1 with _ _ h1
    obtain ⟨h3, h4⟩ := map_record_inj hs h2
    exact ⟨textNode_inj h1, h3, fun i r q hr hq => by simpa using h4 i r q hr hq⟩
  have hx : ∀ z, ∀ a b, Node.elem (py! "ers_errors") [] z ≠ .elem (py! "ers_record") a b := by
    intro z a b h; injection h with h; exact absurd h (by decide)
  rcases hb with ⟨b1, b2⟩ | ⟨b1, er, b2, b3⟩ <;> rcases hb' with ⟨c1, c2⟩ | ⟨c1, er', c2, c3⟩
  · rw [b2] at c2
    obtain ⟨p, q, r⟩ := fin c2
    exact ⟨p, q, by rw [b1, c1], r, fun i x y hx => by rw [b1] at hx; simp at hx⟩
  · rw [b2] at c3
    exact absurd (List.cons.inj c3).2 (map_record_length (hx _))
  · rw [b3] at c2
    exact absurd (List.cons.inj c2).2.symm (map_record_length (hx _))
  · rw [b3] at c3
    have c4 := List.append_inj' c3 rfl
    obtain ⟨p, q, r⟩ := fin c4.1
    have c5 := (List.cons.inj c4.2).1
    injection c5 with _ _ c5
    subst c5
    rw [b2] at c2
    obtain ⟨u, v⟩ := map_record_inj hs c2
    exact ⟨p, q, u, r, fun i x y hx hy => by simpa using v i x y hx hy⟩

theorem plain_tokens {s : Str} (hs : ∀ c ∈ s, c ∈ f15Whitespace ∨ Plain [c]) : ∀ t ∈ tokenizeList f15Whitespace s, Plain t.text := by
  intro t ht c hc
  have hm : c ∈ s := by
    rw [← (c01_locations _ _ t ht).2.2.1] at hc
    exact List.mem_of_mem_take (List.mem_of_mem_drop hc)
  rcases c03_no_separator_in_token _ _ t ht with hw | ⟨hw, _⟩
  · rcases hs c hm with h | h
    · exact absurd h (hw c hc)
    · exact h c (by simp)
  · rw [hw] at hc
    rw [List.mem_singleton.1 hc]
    exact ⟨by decide, by decide, by decide, by decide, by decide, by decide, by decide⟩

/-- **C69** Two accepted field 15s of plain characters with the same XML output have the same derived flight rules and the same elements, up to
decimals that are not printed. -/
theorem c69_text {str : EnumStr} (hf : PlainFormats F str) (hn : DistinctNames str) {s s' : Str}
    (hs : ∀ c ∈ s, c ∈ f15Whitespace ∨ Plain [c]) (hs' : ∀ c ∈ s', c ∈ f15Whitespace ∨ Plain [c]) {frames frames' : Nat} {e e' : Ers F}
    (h : parseF15 frames Ers.new ⟨tokenizeList f15Whitespace s, 0⟩ = .ok (true, e))
    (h' : parseF15 frames' Ers.new ⟨tokenizeList f15Whitespace s', 0⟩ = .ok (true, e')) (hx : e.asXml str = e'.asXml str) :
    e.derived = e'.derived ∧ e.elements.length = e'.elements.length ∧
    (∀ (i : Nat) r q, e.elements[i]? = some r → e'.elements[i]? = some q → SamePrinted r q ∧ r.breakText = q.breakText) := by
  have k := c69 hf hn (fun r hr => parse_plain h (plain_tokens hs) hr) (by rw [no_errors h]; simp) (parse_derived h)
    (fun r hr => parse_plain h' (plain_tokens hs') hr) (by rw [no_errors h']; simp) (parse_derived h') hx
  exact ⟨k.1, k.2.1, k.2.2.2.1⟩

/-- The numbers of the types differ. -/
theorem numberStr_distinct : DistinctNames numberStr := by
  constructor
  · intro a b h
    have := strNat_inj h
    cases a <;> cases b <;> first | rfl | exact absurd this (by decide)
  · intro a b h
    have := strNat_inj h
    revert this
    cases a <;> cases b <;> decide

/-- Two spellings of the same route: other positions, other output. -/
example {e e' : Ers Rat} (h : parseText (py! "N0450F350 PNT UL9 XYZ") = .ok (true, e)) (h' : parseText (py! "N0450F350 PNT  UL9 XYZ") = .ok (true, e')) :
    e.asXml numberStr ≠ e'.asXml numberStr := by
  intro hx
  have k := (c69_text numberStr_plain numberStr_distinct (by unfold Plain; decide +kernel) (by unfold Plain; decide +kernel) h h' hx).2.2
  have k1 : check (py! "N0450F350 PNT UL9 XYZ") (fun _ e => e.elements.map (·.start) = [0, 10, 14, 18, 0]) = true := by decide +kernel
  have k2 : check (py! "N0450F350 PNT  UL9 XYZ") (fun _ e => e.elements.map (·.start) = [0, 10, 15, 19, 0]) = true := by decide +kernel
  unfold check at k1 k2
  rw [h] at k1
  rw [h'] at k2
  simp at k1 k2
  have a : (e.elements.map (·.start))[2]? = some 14 := by rw [k1]; rfl
  have b : (e'.elements.map (·.start))[2]? = some 15 := by rw [k2]; rfl
  rw [List.getElem?_map] at a b
  cases ha : e.elements[2]? with
  | none => rw [ha] at a; cases a
  | some r =>
    cases hb : e'.elements[2]? with
    | none => rw [hb] at b; cases b
    | some q =>
      rw [ha] at a
      rw [hb] at b
      have := (k 2 r q ha hb).1.start
      simp at a b
      omega

end F15
