import Verif.Lemmas.History
import Verif.Spec.Sequence
import Verif.Spec.Example
/-!
# C12, C13, C14, C15, C17–C21, C23, C41: the shape of the extracted route sequence

All theorems hold for every token list, every number of stack frames and every float arithmetic.
-/

namespace F15
open Spec

set_option linter.unusedSectionVars false
variable {F : Type} [PyFloat F]

/-! ### Helpers -/

theorem new_ne : (Ers.new : Ers F).recs ≠ [] := by simp [Ers.new, Ers.addDummyAdepAdes, Ers.createAppendElement, Ers.appendElement]

/-- The two ways `parse_f15` can return. -/
theorem parse_cases {frames : Nat} {e : Ers F} (he : e.recs ≠ []) {tokens : Tokens} {b : Bool} {e' : Ers F}
    (h : parseF15 frames e tokens = .ok (b, e')) :
    (typedTokens tokens = [] ∧ b = false ∧ e' = { e with errs := nullErr :: e.errs }.addDummyAdes) ∨
    ∃ t rest e1, typedTokens tokens = t :: rest ∧ RunOk (t :: rest) e t rest e1 ∧ e1.recs ≠ [] ∧
      b = decide (e1.errs = []) ∧ e' = finErs (post t e1) := by
  rw [parse_eq] at h
  unfold typedTokens
  cases hl : tokens.toks.map assignSyntax with
  | nil =>
    rw [hl] at h
    left
    have h' : (false, ({ e with errs := nullErr :: e.errs } : Ers F).addDummyAdes) = (b, e') := Except.ok.inj h
    simp only [Prod.mk.injEq] at h'
    exact ⟨rfl, h'.1.symm, h'.2.symm⟩
  | cons t rest =>
    right
    rw [hl] at h
    have := parse_cons frames e he t rest (fun x hx => typed_map (hl ▸ hx))
    rw [h] at this
    obtain ⟨e1, h1, h2, h3, h4⟩ := this
    exact ⟨t, rest, e1, rfl, h1, h2, h3, h4⟩

theorem post_errs (t : Token) (e : Ers F) : (post t e).errs = e.errs := by unfold post; split <;> rfl

theorem mapOldest_append (f : Record F → Record F) (l : List (Record F)) (o : Record F) :
    mapOldest f (l ++ [o]) = l ++ [f o] := by simp [mapOldest, mapHead]

/-- The elements after `post`: only the rules of the oldest may differ. -/
theorem post_recs (t : Token) (e : Ers F) (l : List (Record F)) (o : Record F) (h : e.recs = l ++ [o]) :
    (post t e).recs = l ++ [if t.base = .SPEED_VFR then toVfr o else o] := by
  unfold post
  split
  · show mapOldest toVfr e.recs = _
    rw [h, mapOldest_append]
  · exact h

theorem fin_elements (e : Ers F) : (finErs e).elements = e.elements ++ [adesRec ((e.recs.head?.map (·.rules)).getD [])] := by
  unfold finErs Ers.elements; simp

theorem split_last {α : Type} (l : List α) (h : l ≠ []) : ∃ a x, l = a ++ [x] :=
  ⟨l.dropLast, l.getLast h, (List.dropLast_concat_getLast h).symm⟩

/-- Everything about the elements in one statement: for the initial elements `e`, final elements are the old
ones (with the same core), the elements made by the actions, the ADES. -/
theorem run_elements {e e1 : Ers F} (he : e.recs ≠ []) {t : Token} {rest : List Token} (h : RunOk (t :: rest) e t rest e1) :
    ∃ as new old, e1.recs = new ++ old ∧ All2 (fun (a : Act) r => core r = a.coreRec F) as new ∧
      (∀ a ∈ as, a.records = true ∧ a.tok ∈ t :: rest ∧ a.Kind (t :: rest)) ∧
      All2 (fun r r' : Record F => core r' = core r) e.recs old ∧
      OccurIn (as.map Act.tok).reverse (t :: rest) ∧
      (Has48 (t :: rest) e1 ∨ (as.map Act.tok).reverse.Sublist (t :: rest)) := by
  obtain ⟨ts, as, new, old, ⟨h1, h2, h3, h4, ⟨u, hu⟩, h6⟩⟩ := h.hist he
  refine ⟨as, new, old, h1, h2, h3, h4, ⟨ts ++ u, ?_⟩, h6.imp_right fun h => ?_⟩
  · simpa using hu
  · refine List.Sublist.trans ?_ h
    exact List.sublist_append_left _ _

theorem elementOf_core {a : Act} (hr : a.records = true) {T : List Token} (hk : a.Kind T) {r : Record F} (h : core r = a.coreRec F) :
    ElementOf a.tok r := by
  have e1 : r.start = (a.coreRec F).start := by rw [← h]; rfl
  have e2 : r.stop = (a.coreRec F).stop := by rw [← h]; rfl
  have e3 : r.name = (a.coreRec F).name := by rw [← h]; rfl
  have e4 : r.base = (a.coreRec F).base := by rw [← h]; rfl
  have e5 : r.sub = (a.coreRec F).sub := by rw [← h]; rfl
  unfold ElementOf
  rw [e1, e2, e3, e4, e5]
  have pos : ∀ (t : Token) (p : Record F), (posHead t p).start = p.start ∧ (posHead t p).stop = p.stop ∧
      (posHead t p).name = p.name ∧ (posHead t p).base = p.base ∧ (posHead t p).sub = p.sub := by
    intro t p
    unfold posHead
    cases t.sub <;> exact ⟨rfl, rfl, rfl, rfl, rfl⟩
  cases a with
  | point t =>
    obtain ⟨p1, p2, p3, p4, p5⟩ := pos t (toIfr (fresh (Record.new [] 0 0 .UNKNOWN .UNKNOWN : Record F) t))
    exact ⟨p1, p2, .inl p3, .inl ⟨p4, p5⟩⟩
  | vToI t =>
    obtain ⟨p1, p2, p3, p4, p5⟩ := pos t (fresh (Record.new [] 0 0 .UNKNOWN .UNKNOWN : Record F) t)
    exact ⟨p1, p2, .inl p3, .inl ⟨p4, p5⟩⟩
  | ccPoint t =>
    obtain ⟨p1, p2, p3, p4, p5⟩ := pos t (fresh (Record.new [] 0 0 .UNKNOWN .UNKNOWN : Record F) t)
    exact ⟨p1, p2, .inl p3, .inl ⟨p4, p5⟩⟩
  | vToIToV t | route t | plain t => exact ⟨rfl, rfl, .inl rfl, .inl ⟨rfl, rfl⟩⟩
  | brk t =>
    have : ∀ p : Record F, (brkRules t.sub p).start = p.start ∧ (brkRules t.sub p).stop = p.stop ∧
      (brkRules t.sub p).name = p.name ∧ (brkRules t.sub p).base = p.base ∧ (brkRules t.sub p).sub = p.sub := by
      intro p; unfold brkRules; cases t.sub <;> exact ⟨rfl, rfl, rfl, rfl, rfl⟩
    obtain ⟨p1, p2, p3, p4, p5⟩ := this (fresh (Record.new [] 0 0 .UNKNOWN .UNKNOWN : Record F) t)
    exact ⟨p1, p2, .inl p3, .inl ⟨p4, p5⟩⟩
  | sid t => exact ⟨rfl, rfl, .inl rfl, .inr (.inl ⟨hk, rfl, rfl⟩)⟩
  | star t => exact ⟨rfl, rfl, .inl rfl, .inr (.inr ⟨hk, rfl, rfl⟩)⟩
  | vfr t => exact ⟨rfl, rfl, .inr ⟨hk, rfl⟩, .inl ⟨rfl, rfl⟩⟩
  | _ => simp [Act.records] at hr

theorem elementsOf_all2 {as : List Act} {rs : List (Record F)} {T : List Token}
    (h : All2 (fun (a : Act) r => core r = a.coreRec F) as rs) (ha : ∀ a ∈ as, a.records = true ∧ a.tok ∈ T ∧ a.Kind T) :
    ElementsOf (as.map Act.tok) rs := by
  induction h with
  | nil => exact .nil
  | cons hr _ ih =>
    have := ha _ List.mem_cons_self
    exact .cons (elementOf_core this.1 this.2.2 hr) (ih fun a h => ha a (by simp [h]))

theorem core_same {r r' : Record F} (h : core r' = core r) : SameElement r r' := by
  have e1 : (core r').name = (core r).name := by rw [h]
  have e2 : (core r').start = (core r).start := by rw [h]
  have e3 : (core r').stop = (core r).stop := by rw [h]
  have e4 : (core r').base = (core r).base := by rw [h]
  have e5 : (core r').sub = (core r).sub := by rw [h]
  have e6 : (core r').latLongValid = (core r).latLongValid := by rw [h]
  have e7 : (core r').latitude = (core r).latitude := by rw [h]
  have e8 : (core r').longitude = (core r).longitude := by rw [h]
  exact ⟨e1, e2, e3, e4, e5, e6, e7, e8⟩

/-- The fresh sequence. -/
def adepRec (F : Type) [PyFloat F] : Record F := Record.new (py! "ADEP") 0 0 .POINT .PRP_AERO

theorem new_recs : (Ers.new : Ers F).recs = [adepRec F] := rfl

/-- The elements of a run on a fresh sequence. -/
theorem run_fresh {e1 : Ers F} {t : Token} {rest : List Token} (h : RunOk (t :: rest) Ers.new t rest e1) :
    ∃ as new o, e1.recs = new ++ [o] ∧ core o = core (adepRec F) ∧ All2 (fun (a : Act) r => core r = a.coreRec F) as new ∧
      (∀ a ∈ as, a.records = true ∧ a.tok ∈ t :: rest ∧ a.Kind (t :: rest)) ∧
      OccurIn (as.map Act.tok).reverse (t :: rest) ∧
      (Has48 (t :: rest) e1 ∨ (as.map Act.tok).reverse.Sublist (t :: rest)) := by
  obtain ⟨as, new, old, h1, h2, h3, h4, h5, h6⟩ := run_elements new_ne h
  rw [new_recs] at h4
  cases h4 with
  | cons h h' => cases h' with
    | nil => exact ⟨as, new, _, h1, h, h2, h3, h5, h6⟩

/-- The list of elements between ADEP and ADES of the result. -/
def middle (e : Ers F) : List (Record F) := e.elements.tail.dropLast

/-! ### C12 -/

theorem final_elements {t : Token} {e1 : Ers F} {new : List (Record F)} {o : Record F} (h : e1.recs = new ++ [o]) :
    ∃ x, (finErs (post t e1)).elements = (if t.base = .SPEED_VFR then toVfr o else o) :: (new.reverse ++ [adesRec x]) := by
  rw [fin_elements]
  refine ⟨((post t e1).recs.head?.map (·.rules)).getD [], ?_⟩
  unfold Ers.elements
  generalize (adesRec (((post t e1).recs.head?.map (·.rules)).getD []) : Record F) = x
  rw [post_recs t e1 new o h]
  simp

/-- **C12** Whenever `parse_f15` returns on a fresh sequence, the first element is the ADEP placeholder and the
last one the ADES placeholder. -/
theorem c12 {frames : Nat} {tokens : Tokens} {b : Bool} {e' : Ers F}
    (h : parseF15 frames Ers.new tokens = .ok (b, e')) :
    ∃ adep mid ades, e'.elements = adep :: (mid ++ [ades]) ∧ Placeholder (py! "ADEP") adep ∧
      Placeholder (py! "ADES") ades := by
  rcases parse_cases new_ne h with ⟨_, _, rfl⟩ | ⟨t, rest, e1, _, hr, _, _, rfl⟩
  · exact ⟨_, [], _, rfl, ⟨rfl, rfl, rfl, rfl, rfl⟩, ⟨rfl, rfl, rfl, rfl, rfl⟩⟩
  · obtain ⟨as, new, o, h1, h2, _⟩ := run_fresh hr
    obtain ⟨x, hx⟩ := final_elements (t := t) h1
    refine ⟨_, _, _, hx, ?_, ⟨rfl, rfl, rfl, rfl, rfl⟩⟩
    obtain ⟨s1, s2, s3, s4, s5, _⟩ := core_same h2
    split <;> exact ⟨s1, s2, s3, s4, s5⟩

example : summary (py! "rubbish // ?") = some (false, [py! "ADEP", py! "ADES"],
    [py! "The first Field 15 element must be a SPEED/LEVEL and not 'rubbish'", py! "'/' not expected preceding '/'",
     py! "The element '?' is an unrecognised Field 15 element"], py! "I") := by decide +kernel

/-! ### C13 -/

/-- **C13** `parse_f15` returns True exactly when the error list is empty. -/
theorem c13 {frames : Nat} {e : Ers F} (he : e.elements ≠ []) {tokens : Tokens} {b : Bool} {e' : Ers F}
    (h : parseF15 frames e tokens = .ok (b, e')) : b = true ↔ e'.errors = [] := by
  have he' : e.recs ≠ [] := by intro h; apply he; unfold Ers.elements; rw [h]; rfl
  rcases parse_cases he' h with ⟨_, rfl, rfl⟩ | ⟨t, rest, e1, _, hr, _, rfl, rfl⟩
  · simp [Ers.errors, Ers.addDummyAdes, Ers.addDummyAdepAdes, Ers.createAppendElement, Ers.appendElement]
  · simp [Ers.errors, finErs, post_errs]

/-- **C13** An empty field 15 returns False with the single error "Field 15 is empty", on a fresh sequence. -/
theorem c13_empty (frames : Nat) (tokens : Tokens) (h : tokens.toks = []) :
    ∃ e', parseF15 (F := F) frames Ers.new tokens = .ok (false, e') ∧
      e'.errors.map (·.errorText) = [py! "Field 15 is empty"] ∧ e'.elements.map (·.name) = [py! "ADEP", py! "ADES"] := by
  refine ⟨({ (Ers.new : Ers F) with errs := nullErr :: (Ers.new : Ers F).errs }).addDummyAdes, ?_, ?_, ?_⟩
  · rw [parse_eq, h]; rfl
  · rfl
  · rfl

/-- **C13** The Readme and main.py call the value `num_errors` and say that errors exist if it is greater than zero. It is a bool, and as
a number (False is 0, True is 1) it is greater than zero exactly if there are no errors: the documented test is always wrong. -/
theorem c13_documented {frames : Nat} {tokens : Tokens} {b : Bool} {e' : Ers F}
    (h : parseF15 frames Ers.new tokens = .ok (b, e')) : ¬ (0 < b.toNat ↔ 0 < e'.errors.length) := by
  have h1 := c13 (by simp [Ers.elements, Ers.new, Ers.addDummyAdepAdes, Ers.createAppendElement, Ers.appendElement]) h
  cases b with
  | true => simp [h1.1 rfl]
  | false =>
    have h2 : e'.errors ≠ [] := fun h => Bool.false_ne_true (h1.2 h)
    have h3 : 0 < e'.errors.length := List.length_pos_iff.2 h2
    intro h4
    exact absurd (h4.2 h3) (by decide)

example : ∃ e' : Ers Rat, parseText (py! " \n") = .ok (false, e') :=
  ⟨_, rfl⟩

/-! ### C14 -/

/-- Invariant: the rules of the oldest element are kept, or become IFR. -/
theorem oldest_rules {T : List Token} {a b : Cfg F} (s : Star T a b) (S : Str → Prop) (hI : S (py! "IFR"))
    (h : ∃ l o, a.ers.recs = l ++ [o] ∧ S o.rules) : ∃ l o, b.ers.recs = l ++ [o] ∧ S o.rules := by
  refine Star.recs_inv (P := fun r => ∃ l o, r = l ++ [o] ∧ S o.rules) ?_ ?_ s ?_ h
  · intro a p rs l' _ _ _ ⟨l, o, h1, h2⟩ _ k
    rw [h1] at k
    obtain ⟨x, y, rfl, _, k2⟩ := k.append_left
    cases k2 with
    | cons k1 k' =>
      cases k'
      refine ⟨_ :: x, _, rfl, ?_⟩
      unfold Keep at k1; rw [k1]; exact h2
  · intro a p rs _ _ _ ⟨l, o, h1, h2⟩
    cases l with
    | nil =>
      obtain ⟨rfl, rfl⟩ := List.cons.inj h1
      refine ⟨[], _, rfl, ?_⟩
      have hb : ∀ (s : Str), (p.appendBreakText s).rules = p.rules := by
        intro s; unfold Record.appendBreakText; split <;> rfl
      cases a with
      | level | levels | plus => exact hI
      | text t => show S (p.appendBreakText t.text).rules; rw [hb]; exact h2
      | _ => exact h2
    | cons q l =>
      obtain ⟨rfl, rfl⟩ := List.cons.inj h1
      exact ⟨_ :: l, o, rfl, h2⟩
  · obtain ⟨l, o, h, _⟩ := h; rw [h]; simp

theorem firstAct_run_fresh (t : Token) : ((firstAct t).run (Ers.new : Ers F)).recs = (firstAct t).recs [adepRec F] := rfl

theorem derive_spec (o : Record F) (l : List (Record F)) :
    deriveRules o.rules (((o :: l)).map (·.rules)) = derivedOf ((o :: l).map (·.rules)) := by
  unfold deriveRules derivedOf
  simp only [List.map_cons, List.head?_cons, Option.some.injEq, List.contains_iff_mem]

/-- **C14** After parsing a non-empty field 15 the derived flight rules are the summary of the flight rules of
the elements, and the ADES carries the rules of the element before it. -/
theorem c14 {frames : Nat} {e : Ers F} (he : e.elements ≠ []) {tokens : Tokens} (hne : tokens.toks ≠ []) {b : Bool}
    {e' : Ers F} (h : parseF15 frames e tokens = .ok (b, e')) :
    e'.derived = derivedOf (e'.elements.map (·.rules)) ∧
    ∃ l prev ades, e'.elements = l ++ [prev, ades] ∧ ades.rules = prev.rules := by
  have he' : e.recs ≠ [] := by intro h; apply he; unfold Ers.elements; rw [h]; rfl
  rcases parse_cases he' h with ⟨h, _⟩ | ⟨t, rest, e1, _, hr, hn, _, rfl⟩
  · exact absurd (List.map_eq_nil_iff.1 h) hne
  · have hpn := post_ne t e1 hn
    generalize post t e1 = e2 at hpn
    constructor
    · obtain ⟨l, o, hl⟩ := split_last e2.recs hpn
      have : (finErs e2).elements = o :: (l.reverse ++ [adesRec ((e2.recs.head?.map (·.rules)).getD [])]) := by
        rw [fin_elements, Ers.elements, hl]; simp
      rw [this, ← derive_spec, ← this]
      show deriveRules (oldestRules e2.recs) _ = _
      congr 1
      unfold oldestRules; rw [hl]; simp
    · rw [fin_elements]
      cases hl : e2.recs with
      | nil => exact absurd hl hpn
      | cons p rs =>
        refine ⟨rs.reverse, p, adesRec p.rules, ?_, rfl⟩
        simp [Ers.elements, hl]

theorem derived_of_first (o : Record F) (l : List (Record F)) :
    (o.rules = py! "VFR" → derivedOf ((o :: l).map (·.rules)) ∈ [py! "V", py! "Z"]) ∧
    (o.rules ≠ py! "VFR" → derivedOf ((o :: l).map (·.rules)) ∈ [py! "I", py! "Y"]) := by
  unfold derivedOf
  simp only [List.map_cons, List.head?_cons, Option.some.injEq]
  constructor
  · intro h; rw [if_pos h]; split <;> simp
  · intro h; rw [if_neg h]; split <;> simp

/-- **C14** A field 15 starting with SPEED/VFR is derived as V or Z, any other one as I or Y (fresh sequence). -/
theorem c14_start {frames : Nat} {tokens : Tokens} {t : Token} (ht : tokens.toks.head? = some t)
    {b : Bool} {e' : Ers F} (h : parseF15 frames Ers.new tokens = .ok (b, e')) :
    (SpeedVfr t.text → e'.derived ∈ [py! "V", py! "Z"]) ∧ (¬ SpeedVfr t.text → e'.derived ∈ [py! "I", py! "Y"]) := by
  have hne : tokens.toks ≠ [] := by intro h; rw [h] at ht; simp at ht
  have hd := (c14 (by show (Ers.new : Ers F).recs.reverse ≠ []; simp [new_recs]) hne h).1
  rcases parse_cases new_ne h with ⟨h, _⟩ | ⟨t', rest, e1, htt, hr, hn, _, rfl⟩
  · exact absurd (List.map_eq_nil_iff.1 h) hne
  · have htt' : t' = assignSyntax t := by
      unfold typedTokens at htt
      cases hl : tokens.toks with
      | nil => exact absurd hl hne
      | cons a l =>
        rw [hl] at ht htt
        simp only [List.head?_cons, Option.some.injEq] at ht
        simp only [List.map_cons, List.cons.injEq] at htt
        rw [← htt.1, ht]
    have hv : SpeedVfr t.text ↔ t'.base = .SPEED_VFR := by
      rw [htt']
      constructor
      · intro hs
        have := (c10_speed_vfr t.text).2 hs
        have hlen : t.text.length ≤ 25 := by
          obtain ⟨a, ha, h⟩ := hs
          rw [ha]
          have : a.length ≤ 5 := by
            rcases h with ⟨u, d, _, rfl, h, _⟩ | ⟨u, d, _, rfl, h, _⟩ <;> simp [h]
          simp; omega
        rw [assignSyntax_eq, if_neg (by omega)]; exact this
      · intro hb
        rw [assignSyntax_eq] at hb
        split at hb
        · simp at hb
        · exact (c10_speed_vfr t.text).1 hb
    rw [hd]
    obtain ⟨as, new, o, h1, h2, _⟩ := run_fresh hr
    obtain ⟨x, hx⟩ := final_elements (t := t') h1
    rw [hx, hv]
    constructor
    · intro hb
      exact (derived_of_first _ _).1 (by rw [if_pos hb]; rfl)
    · intro hb
      refine (derived_of_first _ _).2 ?_
      rw [if_neg hb]
      obtain ⟨ts1, hs⟩ := hr
      have := oldest_rules hs (fun s => s ≠ py! "VFR") (by decide) ?_
      · obtain ⟨l, o', hl, ho⟩ := this
        have : l ++ [o'] = new ++ [o] := hl.symm.trans h1
        have := List.append_inj' this rfl
        rw [← (List.cons.inj this.2).1]; exact ho
      · dsimp only
        rw [firstAct_run_fresh]
        unfold firstAct
        cases hb' : t'.base
        case SPEED_VFR => exact absurd hb' hb
        case SPEED_ALTITUDE => exact ⟨[], _, rfl, (by decide : ¬ (py! "IFR" = py! "VFR"))⟩
        all_goals exact ⟨[], _, rfl, (by decide : ¬ (([] : Str) = py! "VFR"))⟩

example : (summary (py! "N0120VFR ABC IFR DEF/N0300F200 GHI")).map (·.2.2.2) = some (py! "Z") := by decide +kernel
example : (summary (py! "N0120VFR ABC")).map (·.2.2.2) = some (py! "V") := by decide +kernel
example : (summary (py! "N0300F200 ABC VFR DEF")).map (·.2.2.2) = some (py! "Y") := by decide +kernel

/-! ### C17 -/

theorem errRec_is {t : Token} {n : Nat} (h : (errorMessage n).isSome) : ErrorIs t n (errRec t n : Record F) := by
  obtain ⟨m, hm⟩ := Option.isSome_iff_exists.1 h
  refine ⟨m, ?_, ?_⟩
  · have : ∀ (l : List (Nat × Str)), l.lookup n = some m → (n, m) ∈ l := by
      intro l hl
      induction l with
      | nil => simp at hl
      | cons p l ih =>
        obtain ⟨a, b⟩ := p
        rw [List.lookup_cons] at hl
        split at hl
        · rename_i he
          have : n = a := by simpa using he
          simp only [Option.some.injEq] at hl
          subst this hl; simp
        · exact List.mem_cons_of_mem _ (ih hl)
    exact this _ hm
  · unfold errRec; rw [hm]; rfl

/-- Every error record added by a call on a non-empty field 15 is the record of a message in use, for one of the tokens of the input. -/
theorem new_errors {frames : Nat} {e : Ers F} (he : e.elements ≠ []) {tokens : Tokens} (hne : tokens.toks ≠ []) {b : Bool}
    {e' : Ers F} (h : parseF15 frames e tokens = .ok (b, e')) :
    ∃ new, e'.errors = e.errors ++ new ∧ ∀ r ∈ new, ∃ t ∈ typedTokens tokens, ∃ n ∈ reportable, ErrorIs t n r := by
  have he' : e.recs ≠ [] := by intro h; apply he; unfold Ers.elements; rw [h]; rfl
  rcases parse_cases he' h with ⟨h, _⟩ | ⟨t, rest, e1, htt, hr, hn, _, rfl⟩
  · exact absurd (List.map_eq_nil_iff.1 h) hne
  · obtain ⟨ts1, hs⟩ := hr.start (by simp)
    obtain ⟨new, h1, h2⟩ := Star.errs (e0 := e) hs ⟨[], rfl, by simp⟩
    refine ⟨new.reverse, ?_, ?_⟩
    · show (post t e1).errs.reverse = _
      rw [post_errs, show e1.errs = new ++ e.errs from h1]; simp [Ers.errors]
    · intro r hr
      obtain ⟨t', ht', n, rfl, hn⟩ := h2 r (List.mem_reverse.1 hr)
      exact ⟨t', htt ▸ ht', n, hn, errRec_is (reportable_isSome hn)⟩

/-- **C17** Every error record added by a call on a non-empty field 15 is the record of a catalogue message for
one of the tokens of the input. -/
theorem c17 {frames : Nat} {e : Ers F} (he : e.elements ≠ []) {tokens : Tokens} (hne : tokens.toks ≠ []) {b : Bool}
    {e' : Ers F} (h : parseF15 frames e tokens = .ok (b, e')) :
    ∃ new, e'.errors = e.errors ++ new ∧ ∀ r ∈ new, ∃ t ∈ typedTokens tokens, ∃ n, ErrorIs t n r := by
  obtain ⟨new, h1, h2⟩ := new_errors he hne h
  refine ⟨new, h1, fun r hr => ?_⟩
  obtain ⟨t, ht, n, _, hn⟩ := h2 r hr
  exact ⟨t, ht, n, hn⟩

example : ErrorIs ⟨py! "B9", 10, 12, .ROUTE, .ATS⟩ 47 (errRec ⟨py! "B9", 10, 12, .ROUTE, .ATS⟩ 47 : Record Rat) :=
  errRec_is (by decide)

/-! ### C18–C20 -/

/-- **C18, C19** The elements between ADEP and ADES are elements of input tokens, no two of the same token. -/
theorem c18_c19 {frames : Nat} {tokens : Tokens} {b : Bool} {e' : Ers F}
    (h : parseF15 frames Ers.new tokens = .ok (b, e')) :
    ∃ ts adep mid ades, e'.elements = adep :: (mid ++ [ades]) ∧ ElementsOf ts mid ∧ OccurIn ts (typedTokens tokens) := by
  rcases parse_cases new_ne h with ⟨_, _, rfl⟩ | ⟨t, rest, e1, htt, hr, _, _, rfl⟩
  · exact ⟨[], _, [], _, rfl, .nil, ⟨typedTokens tokens, List.Perm.refl _⟩⟩
  · obtain ⟨as, new, o, h1, h2, h3, h4, h5, h6⟩ := run_fresh hr
    obtain ⟨x, hx⟩ := final_elements (t := t) h1
    refine ⟨(as.map Act.tok).reverse, _, _, _, hx, ?_, htt ▸ h5⟩
    rw [← List.map_reverse]
    exact elementsOf_all2 (T := t :: rest) h3.reverse (fun a ha => h4 a (List.mem_reverse.1 ha))

theorem Spec.ElementsOf.length {ts : List Token} {rs : List (Record F)} (h : ElementsOf ts rs) : ts.length = rs.length := by
  induction h with
  | nil => rfl
  | cons _ _ ih => simp [ih]

theorem Spec.ElementsOf.mem {ts : List Token} {rs : List (Record F)} (h : ElementsOf ts rs) {r : Record F} (hr : r ∈ rs) :
    ∃ t ∈ ts, ElementOf t r := by
  induction h with
  | nil => simp at hr
  | cons h _ ih =>
    rcases List.mem_cons.1 hr with rfl | hr
    · exact ⟨_, by simp, h⟩
    · obtain ⟨t, ht, h'⟩ := ih hr; exact ⟨t, by simp [ht], h'⟩

/-- **C18** Every element between ADEP and ADES is the element of an input token. -/
theorem c18 {frames : Nat} {tokens : Tokens} {b : Bool} {e' : Ers F}
    (h : parseF15 frames Ers.new tokens = .ok (b, e')) :
    ∃ adep mid ades, e'.elements = adep :: (mid ++ [ades]) ∧ ∀ r ∈ mid, ∃ t ∈ typedTokens tokens, ElementOf t r := by
  obtain ⟨ts, adep, mid, ades, h1, h2, u, h3⟩ := c18_c19 h
  refine ⟨adep, mid, ades, h1, fun r hr => ?_⟩
  obtain ⟨t, ht, h'⟩ := h2.mem hr
  exact ⟨t, h3.subset (by simp [ht]), h'⟩

/-- **C19** The sequence has at most (number of tokens + 2) elements. -/
theorem c19_count {frames : Nat} {tokens : Tokens} {b : Bool} {e' : Ers F}
    (h : parseF15 frames Ers.new tokens = .ok (b, e')) : e'.numberOfElements ≤ tokens.getNumberOfTokens + 2 := by
  obtain ⟨ts, adep, mid, ades, h1, h2, u, h3⟩ := c18_c19 h
  have hl := h3.length_eq
  have : e'.numberOfElements = e'.elements.length := by simp [Ers.numberOfElements, Ers.elements]
  rw [this, h1]
  have := h2.length
  simp only [List.length_append, List.length_cons, List.length_nil, typedTokens, List.length_map] at *
  unfold Tokens.getNumberOfTokens
  omega

example : (summary (py! "N0450F350 PNT A1 XYZ/N0400F300 DCT 50N010E")).map (fun r => r.2.1.length) = some 7 := by
  decide +kernel

/-- **C20 (partial)** If no error 48 ("Lat/Long cannot follow an ATS route") is reported, the elements between
ADEP and ADES are the elements of a subsequence of the tokens, in the order of the tokens. Without the condition the claim is false,
see `c20_false`. -/
theorem c20_partial {frames : Nat} {tokens : Tokens} {b : Bool} {e' : Ers F}
    (h : parseF15 frames Ers.new tokens = .ok (b, e')) (h48 : ∀ r ∈ e'.errors, ∀ t, ¬ ErrorIs t 48 r) :
    ∃ ts adep mid ades, e'.elements = adep :: (mid ++ [ades]) ∧ ElementsOf ts mid ∧ ts.Sublist (typedTokens tokens) := by
  rcases parse_cases new_ne h with ⟨_, _, rfl⟩ | ⟨t, rest, e1, htt, hr, _, _, rfl⟩
  · exact ⟨[], _, [], _, rfl, .nil, List.nil_sublist _⟩
  · obtain ⟨as, new, o, h1, h2, h3, h4, h5, h6⟩ := run_fresh hr
    obtain ⟨x, hx⟩ := final_elements (t := t) h1
    refine ⟨(as.map Act.tok).reverse, _, _, _, hx, ?_, ?_⟩
    · rw [← List.map_reverse]
      exact elementsOf_all2 (T := t :: rest) h3.reverse (fun a ha => h4 a (List.mem_reverse.1 ha))
    · rcases h6 with ⟨t', _, hm⟩ | h6
      · refine absurd (errRec_is (by decide)) (h48 _ ?_ t')
        show _ ∈ (post t e1).errs.reverse
        rw [post_errs]; exact List.mem_reverse.2 hm
      · rw [htt]; exact h6

/-- **C20** In particular every accepted route has its elements in source order. -/
theorem c20_accepted {frames : Nat} {tokens : Tokens} {e' : Ers F}
    (h : parseF15 frames Ers.new tokens = .ok (true, e')) :
    ∃ ts adep mid ades, e'.elements = adep :: (mid ++ [ades]) ∧ ElementsOf ts mid ∧ ts.Sublist (typedTokens tokens) := by
  refine c20_partial h ?_
  rw [(c13 (by show (Ers.new : Ers F).recs.reverse ≠ []; simp [new_recs]) h).1 rfl]
  simp

/-- Elements with increasing token indices. -/
def Ordered (l : List (Record F)) : Prop := l.Pairwise fun a b => a.start ≤ b.start

/-- **C20 (refutation)** In `N0450F350 PNT B9 50N010E XYZ` the point `50N010E`, which cannot follow a route, is
recorded after `XYZ`. -/
theorem c20_false : ∃ s : Str, ∃ b e', parseText s = .ok (b, e') ∧
    e'.elements.map (·.name) = [py! "ADEP", py! "PNT", py! "B9", py! "XYZ", py! "50N010E", py! "ADES"] ∧
    ¬ Ordered (middle e') := by
  refine ⟨py! "N0450F350 PNT B9 50N010E XYZ", ?_⟩
  have : ∃ r, parseText (py! "N0450F350 PNT B9 50N010E XYZ") = .ok r ∧
      r.2.elements.map (·.name) = [py! "ADEP", py! "PNT", py! "B9", py! "XYZ", py! "50N010E", py! "ADES"] ∧
      (middle r.2).map (·.start) = [10, 14, 25, 17] := by
    cases h : parseText (py! "N0450F350 PNT B9 50N010E XYZ") with
    | error x =>
      have : (match parseText (py! "N0450F350 PNT B9 50N010E XYZ") with | .ok _ => true | .error _ => false) = true := by
        decide +kernel
      rw [h] at this; simp at this
    | ok r =>
      have : (match parseText (py! "N0450F350 PNT B9 50N010E XYZ") with
        | .ok r => decide (r.2.elements.map (·.name) = [py! "ADEP", py! "PNT", py! "B9", py! "XYZ", py! "50N010E", py! "ADES"] ∧
            (middle r.2).map (·.start) = [10, 14, 25, 17])
        | .error _ => false) = true := by decide +kernel
      rw [h] at this
      exact ⟨r, rfl, by simpa using this⟩
  obtain ⟨⟨b, e'⟩, h1, h2, h3⟩ := this
  refine ⟨b, e', h1, h2, fun ho => ?_⟩
  have : ((middle e').map (·.start)).Pairwise (· ≤ ·) := List.pairwise_map.2 ho
  rw [h3] at this
  exact absurd this (by decide)

/-! ### C21 -/

/-- Pointwise the same elements. -/
inductive SameElements : List (Record F) → List (Record F) → Prop
  | nil : SameElements [] []
  | cons {a b l l'} : SameElement a b → SameElements l l' → SameElements (a :: l) (b :: l')

theorem sameElements_of {l l' : List (Record F)} (h : All2 (fun r r' : Record F => core r' = core r) l l') : SameElements l l' := by
  induction h with
  | nil => exact .nil
  | cons h _ ih => exact .cons (core_same h) ih

/-- **C21** Parsing only appends: the elements and errors present before the call are still there, in the same
order, with the same name, indices, types and position. -/
theorem c21 {frames : Nat} {e : Ers F} (he : e.elements ≠ []) {tokens : Tokens} {b : Bool} {e' : Ers F}
    (h : parseF15 frames e tokens = .ok (b, e')) :
    (∃ newErr, e'.errors = e.errors ++ newErr) ∧
    ∃ old new, e'.elements = old ++ new ∧ SameElements e.elements old := by
  have he' : e.recs ≠ [] := by intro h; apply he; unfold Ers.elements; rw [h]; rfl
  rcases parse_cases he' h with ⟨_, rfl, rfl⟩ | ⟨t, rest, e1, htt, hr, hn, _, rfl⟩
  · refine ⟨⟨[nullErr], ?_⟩, e.elements, [adesRec []], ?_, ?_⟩
    · simp [Ers.errors, Ers.addDummyAdes, Ers.addDummyAdepAdes, Ers.createAppendElement, Ers.appendElement]
    · simp [Ers.elements, Ers.addDummyAdes, Ers.addDummyAdepAdes, Ers.createAppendElement, Ers.appendElement]; rfl
    · exact sameElements_of (All2.refl (R := fun r r' : Record F => core r' = core r) (fun _ => rfl) _)
  · constructor
    · obtain ⟨ts1, hs⟩ := hr.start (by simp)
      obtain ⟨new, h1, h2⟩ := Star.errs (e0 := e) hs ⟨[], rfl, by simp⟩
      refine ⟨new.reverse, ?_⟩
      show (post t e1).errs.reverse = _
      rw [post_errs, show e1.errs = new ++ e.errs from h1]; simp [Ers.errors]
    · obtain ⟨as, new, old, h1, h2, h3, h4, h5, h6⟩ := run_elements he' hr
      obtain ⟨l0, o0, hl0⟩ := split_last _ he'
      rw [hl0] at h4
      obtain ⟨l, ol, rfl, k1, k2⟩ := h4.append_left
      cases k2 with
      | @cons _ o _ _ k k' =>
        cases k'
        rw [fin_elements]
        generalize (adesRec (((post t e1).recs.head?.map (·.rules)).getD []) : Record F) = x
        refine ⟨(l ++ [if t.base = .SPEED_VFR then toVfr o else o]).reverse, new.reverse ++ [x], ?_, ?_⟩
        · unfold Ers.elements
          rw [post_recs t e1 (new ++ l) o (by rw [h1, List.append_assoc])]
          simp
        · refine sameElements_of ?_
          unfold Ers.elements
          rw [hl0]
          refine All2.reverse (All2.append k1 (.cons ?_ .nil))
          split
          · exact k
          · exact k

/-! ### C41 -/

/-- **C41** The result depends only on the token texts and positions: not on the cursor nor on types left by earlier
parses. -/
theorem c41 (frames : Nat) (e : Ers F) (tokens tokens' : Tokens)
    (h : tokens.toks.map (fun t => (t.text, t.start, t.stop)) = tokens'.toks.map (fun t => (t.text, t.start, t.stop))) :
    parseF15 frames e tokens = parseF15 frames e tokens' := by
  rw [parse_eq, parse_eq]
  congr 1
  let f : Str × Nat × Nat → Token := fun p => assignSyntax (Token.new p.1 p.2.1 p.2.2)
  have hf : ∀ t : Token, assignSyntax t = f (t.text, t.start, t.stop) := by
    intro t; simp only [f]; rw [assignSyntax_eq, assignSyntax_eq]; rfl
  have : ∀ l : List Token, l.map assignSyntax = (l.map fun t => (t.text, t.start, t.stop)).map f := by
    intro l; rw [List.map_map]; exact List.map_congr_left fun t _ => hf t
  rw [this, this, h]

/-- **C41** Parsing the same token list a second time, after the first call has moved its cursor and changed its types. -/
theorem c41_again (frames : Nat) (e : Ers F) (tokens : Tokens) (cur : Int) :
    parseF15 frames e { assignSyntaxDescriptions tokens with cur := cur } = parseF15 frames e tokens := by
  refine c41 _ _ _ _ ?_
  simp only [assignSyntaxDescriptions, List.map_map]
  exact List.map_congr_left fun t _ => by
    show ((assignSyntax t).text, (assignSyntax t).start, (assignSyntax t).stop) = _
    rw [assignSyntax_eq]; split <;> rfl

example : parseF15 (F := Rat) 100 Ers.new ⟨[⟨py! "PNT", 0, 3, .TOO_LONG, .GAT⟩], -7⟩ =
    parseF15 100 Ers.new ⟨[⟨py! "PNT", 0, 3, .UNKNOWN, .UNKNOWN⟩], 0⟩ := c41 _ _ _ _ rfl

end F15
