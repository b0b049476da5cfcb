import Verif.Lemmas.Xml
import Verif.Props.Ranges
import Verif.Props.Tokenizer
import Verif.Props.Depth
import Verif.Spec.Example
/-!
# C44: XML output
-/

namespace F15
open Spec

set_option linter.unusedSectionVars false
variable {F : Type} [PyFloat F]

/-- **C44** The XML output of an extracted route sequence whose texts are plain is a well-formed document, and reading it gives back
the derived rules and all attributes of all elements and errors, in their order. -/
theorem c44_document {str : EnumStr} (hf : PlainFormats F str) {e : Ers F} (h1 : ∀ r ∈ e.elements, PlainRecord r)
    (h2 : ∀ r ∈ e.errors, PlainRecord r) (h3 : Plain e.derived) :
    ∃ n, readXml (e.asXml str) = some n ∧ IsDocument str e n := read_document hf h1 h2 h3

/-! ### The texts of a parse -/

theorem plain_nil : Plain [] := by intro c hc; cases hc

theorem Spec.Plain.append {s t : Str} (hs : Plain s) (ht : Plain t) : Plain (s ++ t) := by
  intro c hc
  rcases List.mem_append.1 hc with hc | hc
  · exact hs c hc
  · exact ht c hc

theorem Spec.Plain.sub {s t : Str} (hs : Plain s) (h : ∀ c ∈ t, c ∈ s) : Plain t := fun c hc => hs c (h c hc)

/-- Letters. -/
theorem plain_upper {c : Char} (h1 : '@' ≤ c) (h2 : c ≤ 'Z') :
    xmlChar c = true ∧ c ≠ '<' ∧ c ≠ '>' ∧ c ≠ '&' ∧ c ≠ '"' ∧ c ≠ '\t' ∧ c ≠ '\n' := by
  have h1' : 64 ≤ c.toNat := h1
  have h2' : c.toNat ≤ 90 := h2
  have ne : ∀ d : Char, ¬ (64 ≤ d.toNat ∧ d.toNat ≤ 90) → c ≠ d := by
    rintro d hd rfl; exact hd ⟨h1', h2'⟩
  refine ⟨?_, ne _ (by decide), ne _ (by decide), ne _ (by decide), ne _ (by decide), ne _ (by decide), ne _ (by decide)⟩
  have h3 : '\x20' ≤ c := by
    show (32 : Nat) ≤ c.toNat
    omega
  simp [xmlChar, h3, ne '\uFFFE' (by decide), ne '\uFFFF' (by decide)]

theorem plain_unit {us : List Char} {n : Nat} {s : Str} (hu : ∀ u ∈ us, '@' ≤ u ∧ u ≤ 'Z') (h : UnitDigits us n s) : Plain s := by
  obtain ⟨u, d, h1, rfl, _, h2⟩ := h
  intro c hc
  rcases List.mem_cons.1 hc with rfl | hc
  · exact plain_upper (hu _ h1).1 (hu _ h1).2
  · obtain ⟨h3, h4⟩ := h2 c hc
    have h3' : (48 : Nat) ≤ c.toNat := h3
    have h4' : c.toNat ≤ 57 := h4
    exact plain_of_range (show (40 : Nat) ≤ c.toNat by omega) (show c.toNat ≤ 59 by omega)

theorem plain_speed {s : Str} (h : Speed s) : Plain s := by
  rcases h with h | h <;> exact plain_unit (by decide) h
theorem plain_level {s : Str} (h : Level s) : Plain s := by
  rcases h with h | h <;> exact plain_unit (by decide) h

/-- The texts of an element but speed and level. -/
def PlainRest (r : Record F) : Prop :=
  Plain r.name ∧ Plain r.rules ∧ Plain r.cruiseTo ∧ Plain r.breakText ∧ Plain r.errorText

theorem plainRest_inv {T : List Token} (hT : ∀ t ∈ T, Plain t.text) : ElemInv (F := F) T PlainRest := by
  have hpos : ∀ (t : Token) (q : Record F), PlainRest q → PlainRest (posHead t q) := by
    intro t q h; unfold posHead; cases t.sub <;> exact h
  have pI : Plain ruleI := by unfold Plain; decide
  have pV : Plain ruleV := by unfold Plain; decide
  have pO : Plain ruleO := by unfold Plain; decide
  have pS : Plain ruleS := by unfold Plain; decide
  have hbrk : ∀ (t : Token) (q : Record F), PlainRest q → PlainRest (brkRules t.sub q) := by
    intro t q h; unfold brkRules
    cases t.sub
    case OAT => exact ⟨h.1, pO, h.2.2⟩
    case VFR => exact ⟨h.1, pV, h.2.2⟩
    case IFPSTOP => exact ⟨h.1, pS, h.2.2⟩
    all_goals exact h
  have hfresh : ∀ (t : Token) (p : Record F), Plain t.text → PlainRest p → PlainRest (fresh p t) :=
    fun t p h hp => ⟨h, hp.2.1, plain_nil, plain_nil, plain_nil⟩
  have hifr : ∀ r : Record F, PlainRest r → PlainRest (toIfr r) := fun r h => ⟨h.1, pI, h.2.2⟩
  refine ⟨?_, ?_, ?_⟩
  · intro r r' hk hp
    unfold Keep at hk
    rw [hk]; exact hp
  · intro a p h1 h2 h3 hp
    have hf := hfresh _ p (hT _ h2) hp
    cases a with
    | point t => exact hpos _ _ (hifr _ hf)
    | ccPoint t => exact hpos _ _ hf
    | vToI t => exact hifr _ (hpos _ _ hf)
    | vToIToV t | route t => exact hifr _ hf
    | brk t => exact hbrk _ _ hf
    | vfr t => exact ⟨(by show Plain (py! "VFR"); unfold Plain; decide), pV, plain_nil, plain_nil, plain_nil⟩
    | _ => exact hf
  · intro a p h1 h2 h3 hp
    have ht := hT _ h2
    cases a with
    | level t => exact hifr _ hp
    | levels t =>
      refine ⟨hp.1, pI, ?_, hp.2.2.2⟩
      refine ht.sub fun c hc => ?_
      have hc : c ∈ lv2Of t.text := hc
      have hr : ∀ c ∈ restOf t.text, c ∈ t.text := by
        unfold restOf; split <;> exact fun c hc => List.mem_of_mem_drop hc
      unfold lv2Of tailOf at hc
      split at hc
      · exact hr c (List.mem_of_mem_drop hc)
      · exact hr c (List.mem_of_mem_drop (List.mem_of_mem_drop hc))
    | plus t => exact ⟨hp.1, pI, (by show Plain (py! "PLUS"); unfold Plain; decide), hp.2.2.2⟩
    | text t =>
      show PlainRest (p.appendBreakText t.text)
      unfold Record.appendBreakText
      split
      · exact ⟨hp.1, hp.2.1, hp.2.2.1, ht, hp.2.2.2.2⟩
      · refine ⟨hp.1, hp.2.1, hp.2.2.1, hp.2.2.2.1.append ?_, hp.2.2.2.2⟩
        intro c hc
        rcases List.mem_cons.1 hc with rfl | hc
        · exact ⟨by decide, by decide, by decide, by decide, by decide, by decide, by decide⟩
        · exact ht c hc
    | _ => exact hp

/-- The elements of a parse of tokens with plain texts have plain texts. -/
theorem parse_plain {frames : Nat} {tokens : Tokens} {b : Bool} {e' : Ers F} (h : parseF15 frames Ers.new tokens = .ok (b, e'))
    (hT : ∀ t ∈ tokens.toks, Plain t.text) {r : Record F} (hr : r ∈ e'.elements) : PlainRecord r := by
  have hq := ((parse_cause h).2.2 r hr).1
  have hrest : PlainRest r := by
    have hT' : ∀ t ∈ typedTokens tokens, Plain t.text := by
      intro t ht
      obtain ⟨x, hx, rfl⟩ := List.mem_map.1 ht
      rw [assign_text]; exact hT x hx
    have h0 : PlainRest (adepRec F) := ⟨(by show Plain (py! "ADEP"); unfold Plain; decide), plain_nil, plain_nil, plain_nil, plain_nil⟩
    have ha : ∀ x, Plain x → PlainRest (adesRec (F := F) x) := fun x hx => ⟨(by show Plain (py! "ADES"); unfold Plain; decide), hx, plain_nil, plain_nil, plain_nil⟩
    rcases parse_cases new_ne h with ⟨_, _, rfl⟩ | ⟨t, rest, e1, htt, hrun, hne, _, rfl⟩
    · have hr' : r ∈ [adepRec F, adesRec []] := hr
      have : r = adepRec F ∨ r = adesRec (F := F) [] := by simpa using hr'
      rcases this with rfl | rfl
      · exact h0
      · exact ha _ plain_nil
    · have htt' : typedTokens tokens = t :: rest := htt
      rw [htt'] at hT'
      obtain ⟨ts1, hs⟩ := hrun.start (by simp)
      have h1 := Star.elem_inv (plainRest_inv (F := F) hT') hs new_ne (by
        intro r hr
        rw [new_recs] at hr
        rw [List.mem_singleton.1 hr]; exact h0)
      have h2 : ∀ r ∈ (post t e1).recs, PlainRest r := by
        obtain ⟨l, o, h3⟩ := split_last _ hne
        rw [post_recs t e1 l o h3]
        rw [h3] at h1
        intro r hr
        rcases List.mem_append.1 hr with hr | hr
        · exact h1 r (by simp [hr])
        · have ho := h1 o (by simp)
          rw [List.mem_singleton.1 hr]
          split
          · exact ⟨ho.1, (by show Plain ruleV; unfold Plain; decide), ho.2.2⟩
          · exact ho
      rw [fin_elements] at hr
      rcases List.mem_append.1 hr with hr | hr
      · exact h2 r (List.mem_reverse.1 hr)
      · rw [List.mem_singleton.1 hr]
        refine ha _ ?_
        cases hh : (post t e1).recs with
        | nil => exact plain_nil
        | cons x l => exact (h2 x (by rw [hh]; simp)).2.1
  have hsl : Plain r.speed ∧ Plain r.altitude := by
    rcases hq with hq | ⟨sp, lv, h1, h2, hq⟩
    · have e1 : r.speed = [] := congrArg (·.1) hq
      have e2 : r.altitude = [] := congrArg (·.2.2.1) hq
      rw [e1, e2]; exact ⟨plain_nil, plain_nil⟩
    · have e1 : r.speed = sp := congrArg (·.1) hq
      have e2 : r.altitude = lv := congrArg (·.2.2.1) hq
      rw [e1, e2]; exact ⟨plain_speed h1, plain_level h2⟩
  exact ⟨hrest.1, hsl.1, hsl.2, hrest.2.1, hrest.2.2.1, hrest.2.2.2.1, hrest.2.2.2.2⟩

/-- The derived rules of a parse are plain. -/
theorem parse_derived {frames : Nat} {tokens : Tokens} {b : Bool} {e' : Ers F} (h : parseF15 frames Ers.new tokens = .ok (b, e')) :
    Plain e'.derived := by
  rcases parse_cases new_ne h with ⟨_, _, rfl⟩ | ⟨t, rest, e1, htt, hrun, hne, _, rfl⟩
  · exact plain_nil
  · show Plain (deriveRules _ _)
    unfold deriveRules
    repeat' split
    all_goals unfold Plain; decide

/-- Plain but for `<`. -/
def Nearly (s : Str) : Prop := ∀ c ∈ s, c = '<' ∨ xmlChar c = true ∧ c ≠ '<' ∧ c ≠ '>' ∧ c ≠ '&' ∧ c ≠ '"' ∧ c ≠ '\t' ∧ c ≠ '\n'

theorem messages_nearly : ∀ m ∈ errorMessages, ∀ c ∈ m.2, c = '<' ∨ xmlChar c = true ∧ c ≠ '<' ∧ c ≠ '>' ∧ c ≠ '&' ∧ c ≠ '"' ∧
    c ≠ '\t' ∧ c ≠ '\n' := by decide +kernel

theorem error_nearly {t : Token} (ht : Plain t.text) {n : Nat} {x : Record F} (hx : ErrorIs t n x) :
    Plain x.name ∧ Plain x.speed ∧ Plain x.altitude ∧ Plain x.rules ∧ Plain x.cruiseTo ∧ Plain x.breakText ∧ Nearly x.errorText := by
  obtain ⟨m, hm, rfl⟩ := hx
  refine ⟨ht, plain_nil, plain_nil, plain_nil, plain_nil, plain_nil, ?_⟩
  intro c hc
  obtain ⟨d, hd, hc⟩ := List.mem_flatMap.1 hc
  split at hc
  · exact .inr (ht c hc)
  · rw [List.mem_singleton.1 hc]; exact messages_nearly _ hm d hd

theorem parse_errors_nearly {frames : Nat} {tokens : Tokens} {b : Bool} {e' : Ers F}
    (h : parseF15 frames Ers.new tokens = .ok (b, e')) (hT : ∀ t ∈ tokens.toks, Plain t.text) {x : Record F} (hx : x ∈ e'.errors) :
    Plain x.name ∧ Plain x.speed ∧ Plain x.altitude ∧ Plain x.rules ∧ Plain x.cruiseTo ∧ Plain x.breakText ∧ Nearly x.errorText := by
  by_cases hne : typedTokens tokens = []
  · exact error_nearly (by unfold Plain; decide) (empty_errors h hne x hx)
  · obtain ⟨new, h1, h2⟩ := c17 (by show (Ers.new : Ers F).recs.reverse ≠ []; simp [new_recs])
      (fun h0 => hne (by unfold typedTokens; rw [h0]; rfl)) h
    have hx : x ∈ new := by
      rw [h1] at hx
      simpa [show (Ers.new : Ers F).errors = [] from rfl] using hx
    obtain ⟨t, h3, n, h4⟩ := h2 x hx
    obtain ⟨y, hy, rfl⟩ := List.mem_map.1 h3
    exact error_nearly (t := assignSyntax y) (by rw [assign_text]; exact hT y hy) h4

theorem nearly_plain {s : Str} (h : Nearly s) (hn : '<' ∉ s) : Plain s := by
  intro c hc
  rcases h c hc with rfl | h
  · exact absurd hc hn
  · exact h

theorem nearly_split {s : Str} (h : Nearly s) (hn : '<' ∈ s) : ∃ p q, Plain p ∧ s = p ++ '<' :: q := by
  obtain ⟨p, q, rfl, hp⟩ := List.eq_append_cons_of_mem hn
  exact ⟨p, q, nearly_plain (fun c hc => h c (by simp [hc])) hp, rfl⟩

/-- The first element of a list with a property. -/
theorem first_with {α : Type} (P : α → Prop) (l : List α) :
    (∀ x ∈ l, ¬ P x) ∨ ∃ l1 r l2, l = l1 ++ r :: l2 ∧ P r ∧ ∀ x ∈ l1, ¬ P x := by
  induction l with
  | nil => exact .inl (by simp)
  | cons x l ih =>
    by_cases hx : P x
    · exact .inr ⟨[], x, l, rfl, hx, by simp⟩
    · rcases ih with h | ⟨l1, r, l2, rfl, h1, h2⟩
      · exact .inl (by simp [hx]; exact h)
      · exact .inr ⟨x :: l1, r, l2, rfl, h1, by simp [hx]; exact h2⟩

/-- **C44** Exactly when it works: for tokens with plain texts the XML output is readable if and only if no error text contains `<`,
and then it is the document of the extracted route sequence. -/
theorem c44_iff {str : EnumStr} (hf : PlainFormats F str) {frames : Nat} {tokens : Tokens} {b : Bool} {e' : Ers F}
    (h : parseF15 frames Ers.new tokens = .ok (b, e')) (hT : ∀ t ∈ tokens.toks, Plain t.text) :
    ((∃ n, readXml (e'.asXml str) = some n) ↔ ∀ x ∈ e'.errors, '<' ∉ x.errorText) ∧
    ∀ n, readXml (e'.asXml str) = some n → IsDocument str e' n := by
  have full : ∀ x ∈ e'.errors, '<' ∉ x.errorText → PlainRecord x := by
    intro x hx hn
    obtain ⟨h1, h2, h3, h4, h5, h6, h7⟩ := parse_errors_nearly h hT hx
    exact ⟨h1, h2, h3, h4, h5, h6, nearly_plain h7 hn⟩
  rcases first_with (fun x : Record F => '<' ∈ x.errorText) e'.errors with ha | ⟨l1, r, l2, he, hr, hl⟩
  · obtain ⟨n, h1, h2⟩ := c44_document hf (fun r => parse_plain h hT) (fun x hx => full x hx (ha x hx)) (parse_derived h)
    refine ⟨⟨fun _ => ha, fun _ => ⟨n, h1⟩⟩, ?_⟩
    intro m hm
    rw [h1] at hm
    rw [← Option.some.inj hm]; exact h2
  · have hmem : r ∈ e'.errors := by rw [he]; simp
    obtain ⟨_, h2, h3, h4, h5, _, h7⟩ := parse_errors_nearly h hT hmem
    obtain ⟨p, q, hp, ht⟩ := nearly_split h7 hr
    have hno : readXml (e'.asXml str) = none :=
      unread_document hf (fun r => parse_plain h hT) (parse_derived h) he
        (fun x hx => full x (by rw [he]; simp [hx]) (hl x hx)) h2 h3 h4 h5 hp ht
    constructor
    · constructor
      · rintro ⟨n, hn⟩; rw [hno] at hn; cases hn
      · intro hh; exact absurd hr (hh r hmem)
    · intro n hn; rw [hno] at hn; cases hn

theorem messages_lt : ∀ m ∈ errorMessages, m.1 ≠ 43 → m.1 ≠ 45 → '<' ∉ m.2 := by decide +kernel

/-- **C44** For tokens with plain texts the XML output is a well-formed document with all data of the extracted route sequence, provided
there is no error about minutes (43, 45). The full statement (without the restriction on texts and errors) is false: `c44_false`. -/
theorem c44_partial {str : EnumStr} (hf : PlainFormats F str) {frames : Nat} {tokens : Tokens} {b : Bool} {e' : Ers F}
    (h : parseF15 frames Ers.new tokens = .ok (b, e')) (hT : ∀ t ∈ tokens.toks, Plain t.text)
    (hn : ∀ x ∈ e'.errors, ∀ t, ¬ ErrorIs t 43 x ∧ ¬ ErrorIs t 45 x) :
    ∃ n, readXml (e'.asXml str) = some n ∧ IsDocument str e' n := by
  have hi := c44_iff hf h hT
  have key : ∀ x ∈ e'.errors, '<' ∉ x.errorText := by
    have one : ∀ (t : Token) (n : Nat) (x : Record F), Plain t.text → ErrorIs t n x → ¬ ErrorIs t 43 x → ¬ ErrorIs t 45 x →
        '<' ∉ x.errorText := by
      intro t n x ht hx h1 h2 hlt
      have h3 : n ≠ 43 := by rintro rfl; exact h1 hx
      have h4 : n ≠ 45 := by rintro rfl; exact h2 hx
      obtain ⟨m, hm, rfl⟩ := hx
      obtain ⟨d, hd, hc⟩ := List.mem_flatMap.1 hlt
      split at hc
      · exact (ht _ hc).2.1 rfl
      · rw [← List.mem_singleton.1 hc] at hd; exact messages_lt _ hm h3 h4 hd
    intro x hx
    by_cases hne : typedTokens tokens = []
    · exact one _ _ _ (by unfold Plain; decide) (empty_errors h hne x hx) (hn x hx _).1 (hn x hx _).2
    · obtain ⟨new, h1, h2⟩ := c17 (by show (Ers.new : Ers F).recs.reverse ≠ []; simp [new_recs])
        (fun h0 => hne (by unfold typedTokens; rw [h0]; rfl)) h
      have hx' : x ∈ new := by
        rw [h1] at hx
        simpa [show (Ers.new : Ers F).errors = [] from rfl] using hx
      obtain ⟨t, h3, n, h4⟩ := h2 x hx'
      obtain ⟨y, hy, rfl⟩ := List.mem_map.1 h3
      exact one (assignSyntax y) n x (by rw [assign_text]; exact hT y hy) h4 (hn x hx _).1 (hn x hx _).2
  obtain ⟨n, hr⟩ := hi.1.2 key
  exact ⟨n, hr, hi.2 n hr⟩

/-- **C44** The XML output for an accepted field 15 of plain characters (apart from the separators) is a well-formed document with all
data of the extracted route sequence. -/
theorem c44_accepted {str : EnumStr} (hf : PlainFormats F str) {s : Str} (hs : ∀ c ∈ s, c ∈ f15Whitespace ∨ Plain [c]) {frames : Nat}
    {e' : Ers F} (h : parseF15 frames Ers.new ⟨tokenizeList f15Whitespace s, 0⟩ = .ok (true, e')) :
    ∃ n, readXml (e'.asXml str) = some n ∧ IsDocument str e' n := by
  refine c44_partial hf h ?_ (by rw [no_errors h]; simp)
  intro t ht c hc
  have hm : c ∈ s := by
    rw [← (c01_locations _ _ t ht).2.2.1] at hc
    exact List.mem_of_mem_take (List.mem_of_mem_drop hc)
  rcases c03_no_separator_in_token _ _ t ht with hw | ⟨hw, _⟩
  · rcases hs c hm with h | h
    · exact absurd h (hw c hc)
    · exact h c (by simp)
  · rw [hw] at hc
    rw [List.mem_singleton.1 hc]
    exact ⟨by decide, by decide, by decide, by decide, by decide, by decide, by decide⟩

/-- The numbers of the types, as `str` gives them from Python 3.11 on. -/
def numberStr : EnumStr := ⟨fun b => strNat b.ctorIdx, fun s => strNat s.ctorIdx⟩

/-- The formats of the examples are plain. -/
theorem numberStr_plain : PlainFormats Rat numberStr :=
  ⟨fun _ => plain_nil, fun _ => plain_strNat _, fun _ => plain_strNat _⟩

/-- An accepted field 15 and its document. -/
example : ∃ e' n, parseText (py! "N0450F350 PNT/M080F370 STAY1/0130 UL9 XYZ") = .ok (true, e') ∧
    readXml (e'.asXml numberStr) = some n ∧ IsDocument numberStr e' n := by
  obtain ⟨b, e, h1, h2⟩ := check_ok (s := py! "N0450F350 PNT/M080F370 STAY1/0130 UL9 XYZ") (p := fun b _ => b) (by decide +kernel)
  rw [show b = true from h2] at h1
  obtain ⟨n, h3, h4⟩ := c44_accepted numberStr_plain (by unfold Plain; decide +kernel) h1
  exact ⟨e, n, h1, h3, h4⟩

/-- **C44 (refutation)** The output is not always well formed: it is not for `N0450F350 5060N01000E`, whose 60 minutes give the error message
43, which has a raw `<` in it; and not for `N0450F350 A&B`, since texts are not escaped. -/
theorem c44_false : check (py! "N0450F350 5060N01000E") (fun _ e => (readXml (e.asXml numberStr)).isNone) = true ∧
    check (py! "N0450F350 A&B") (fun _ e => (readXml (e.asXml numberStr)).isNone) = true := by
  constructor <;> decide +kernel

end F15
