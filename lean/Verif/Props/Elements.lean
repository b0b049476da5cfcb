import Verif.Props.Positions
import Verif.Spec.Local
/-!
# C25, C40, C43: attributes of the elements, element access
-/

namespace F15
open Spec

set_option linter.unusedSectionVars false
variable {F : Type} [PyFloat F]

/-! ### Invariants of all elements -/

/-- A property of single elements that new elements have and changes keep, in terms of an action. -/
structure ElemInv (T : List Token) (P : Record F → Prop) : Prop where
  keep : ∀ r r', Keep r r' → P r → P r'
  push : ∀ (a : Act) p, a.records = true → a.tok ∈ T → a.Kind T → P p → P (a.newRec p)
  note : ∀ (a : Act) p, a.records = false → a.tok ∈ T → (∀ t, a = .stay t → t.base = .STAY_TIME) → P p → P (a.tweak p)

theorem Star.elem_inv {T : List Token} {P : Record F → Prop} (hp : ElemInv T P) {a b : Cfg F} (s : Star T a b)
    (hne : a.ers.recs ≠ []) (h : ∀ r ∈ a.ers.recs, P r) : ∀ r ∈ b.ers.recs, P r := by
  refine Star.recs_inv (P := fun l => ∀ r ∈ l, P r) ?_ ?_ s hne h
  · intro a p rs l' h1 h2 h3 h4 _ k r hr
    rcases List.mem_cons.1 hr with rfl | hr
    · exact hp.push a p h1 h2 h3 (h4 p (by simp))
    · obtain ⟨x, hx, hk⟩ := k.mem_right hr
      exact hp.keep x r hk (h4 x hx)
  · intro a p rs h1 h2 h3 h4 r hr
    rcases List.mem_cons.1 hr with rfl | hr
    · exact hp.note a p h1 h2 h3 (h4 p (by simp))
    · exact h4 r (by simp [hr])

/-! ### C40 -/

theorem stay_minutes {t : Token} (ht : Typed t) (hb : t.base = .STAY_TIME) : StayMinutes t.text (stayVal t.text) := by
  have h := (c10_stay_time t.text).1 (by rw [typed_types ht (by rw [hb]; decide), hb])
  obtain ⟨a, b, c, d, hs, ha, hb, hc, hd, h1, h2⟩ := h
  refine ⟨a, b, c, d, hs, ha, hb, hc, hd, ?_, ?_, ?_⟩
  · rw [hs]; simp only [stayVal, List.take, List.drop, numVal2]; omega
  · unfold num2; omega
  · unfold num2; omega

/-- **C40** Every element has the stay time 0, or that of a stay time token of the field 15. -/
theorem c40 {frames : Nat} {tokens : Tokens} {b : Bool} {e' : Ers F} (h : parseF15 frames Ers.new tokens = .ok (b, e'))
    {r : Record F} (hr : r ∈ e'.elements) :
    r.stayTime = 0 ∨ ∃ t ∈ typedTokens tokens, t.base = .STAY_TIME ∧ StayMinutes t.text r.stayTime := by
  rcases parse_cases new_ne h with ⟨_, _, rfl⟩ | ⟨t, rest, e1, htt, hrun, hne, _, rfl⟩
  · have hr' : r ∈ [adepRec F, adesRec []] := hr
    have : r = adepRec F ∨ r = adesRec (F := F) [] := by simpa using hr'
    rcases this with rfl | rfl <;> exact .inl rfl
  · rw [htt]
    have hT : ∀ t' ∈ t :: rest, Typed t' := by rw [← htt]; exact fun _ h => typed_map h
    obtain ⟨ts1, hs⟩ := hrun.start (by simp)
    let P : Record F → Prop := fun r => r.stayTime = 0 ∨
      ∃ t' ∈ t :: rest, t'.base = .STAY_TIME ∧ StayMinutes t'.text r.stayTime
    have hP : ElemInv (t :: rest) P := by
      refine ⟨?_, ?_, ?_⟩
      · intro r r' hk hp
        have : r'.stayTime = r.stayTime := by unfold Keep at hk; rw [hk]
        show _ ∨ _
        rw [this]; exact hp
      · intro a p h1 h2 h3 _
        refine .inl ?_
        have hpos : ∀ (t : Token) (q : Record F), (posHead t q).stayTime = q.stayTime := by
          intro t q; unfold posHead; cases t.sub <;> rfl
        have hbrk : ∀ (t : Token) (q : Record F), (brkRules t.sub q).stayTime = q.stayTime := by
          intro t q; unfold brkRules; cases t.sub <;> rfl
        cases a with
        | point t | ccPoint t => exact hpos _ _
        | vToI t => exact hpos _ (fresh p t)
        | brk t => exact hbrk _ _
        | _ => rfl
      · intro a p h1 h2 h3 hp
        cases a with
        | stay t' => exact .inr ⟨t', h2, h3 t' rfl, stay_minutes (hT t' h2) (h3 t' rfl)⟩
        | text t' =>
          have : (Act.tweak (.text t') p).stayTime = p.stayTime := by
            show (p.appendBreakText t'.text).stayTime = _
            unfold Record.appendBreakText; split <;> rfl
          show _ ∨ _
          rw [this]; exact hp
        | _ => exact hp
    have h1 : ∀ r ∈ e1.recs, P r := Star.elem_inv hP hs new_ne (by
      intro r hr
      rw [new_recs] at hr
      rw [List.mem_singleton.1 hr]; exact .inl rfl)
    have h2 : ∀ r ∈ (post t e1).recs, P r := by
      obtain ⟨l, o, h3⟩ := split_last _ hne
      rw [post_recs t e1 l o h3]
      rw [h3] at h1
      intro r hr
      rcases List.mem_append.1 hr with hr | hr
      · exact h1 r (by simp [hr])
      · have ho : P o := h1 o (by simp)
        rw [List.mem_singleton.1 hr]
        split <;> exact ho
    rw [fin_elements] at hr
    rcases List.mem_append.1 hr with hr | hr
    · exact h2 r (List.mem_reverse.1 hr)
    · rw [List.mem_singleton.1 hr]; exact .inl rfl

/-- **C40** Stay times lie between 0 and 1439 minutes. -/
theorem c40_range {frames : Nat} {tokens : Tokens} {b : Bool} {e' : Ers F}
    (h : parseF15 frames Ers.new tokens = .ok (b, e')) {r : Record F} (hr : r ∈ e'.elements) :
    0 ≤ r.stayTime ∧ r.stayTime ≤ 1439 := by
  rcases c40 h hr with h | ⟨t, _, _, a, b, c, d, _, _, _, _, _, h1, h2, h3⟩
  · rw [h]; exact ⟨by decide, by decide⟩
  · rw [h1]; omega

/-- A stay of 23 hours 59. -/
example : check (py! "N0450F350 PNT STAY1/2359 XYZ") (fun b e => b && decide (e.elements.map (·.stayTime) = [0, 1439, 0, 0])) = true := by
  decide +kernel

/-! ### C25 -/

/-- The four flight rules. -/
def Spec.isRule (s : Str) : Prop := s = py! "IFR" ∨ s = py! "VFR" ∨ s = py! "OAT" ∨ s = py! "IFPS"

theorem rules_inv (T : List Token) (S : Str → Prop) (hS : ∀ s, isRule s → S s) : ElemInv (F := F) T (fun r => S r.rules) := by
  refine ⟨?_, ?_, ?_⟩
  · intro r r' hk hp
    have : r'.rules = r.rules := by unfold Keep at hk; rw [hk]
    rw [this]; exact hp
  · intro a p h1 h2 h3 hp
    have hpos : ∀ (t : Token) (q : Record F), (posHead t q).rules = q.rules := by
      intro t q; unfold posHead; cases t.sub <;> rfl
    cases a with
    | point t => rw [show ((Act.point t).newRec p).rules = _ from hpos _ _]; exact hS _ (.inl rfl)
    | ccPoint t => rw [show ((Act.ccPoint t).newRec p).rules = _ from hpos _ _]; exact hp
    | vToI t | vToIToV t | route t => exact hS _ (.inl rfl)
    | vfr t => exact hS _ (.inr (.inl rfl))
    | brk t =>
      show S (brkRules t.sub (fresh p t)).rules
      unfold brkRules
      cases t.sub
      case OAT => exact hS _ (.inr (.inr (.inl rfl)))
      case VFR => exact hS _ (.inr (.inl rfl))
      case IFPSTOP => exact hS _ (.inr (.inr (.inr rfl)))
      all_goals exact hp
    | _ => exact hp
  · intro a p h1 h2 h3 hp
    cases a with
    | text t' =>
      have : (Act.tweak (.text t') p).rules = p.rules := by
        show (p.appendBreakText t'.text).rules = _
        unfold Record.appendBreakText; split <;> rfl
      rw [this]; exact hp
    | level t | levels t | plus t => exact hS _ (.inl rfl)
    | _ => exact hp

/-- **C25** The flight rules of every element are IFR, VFR, OAT, IFPS or empty. -/
theorem c25_values {frames : Nat} {tokens : Tokens} {b : Bool} {e' : Ers F}
    (h : parseF15 frames Ers.new tokens = .ok (b, e')) {r : Record F} (hr : r ∈ e'.elements) :
    isRule r.rules ∨ r.rules = [] := by
  rcases parse_cases new_ne h with ⟨_, _, rfl⟩ | ⟨t, rest, e1, htt, hrun, hne, _, rfl⟩
  · have hr' : r ∈ [adepRec F, adesRec []] := hr
    have : r = adepRec F ∨ r = adesRec (F := F) [] := by simpa using hr'
    rcases this with rfl | rfl <;> exact .inr rfl
  · obtain ⟨ts1, hs⟩ := hrun.start (by simp)
    have h1 := Star.elem_inv (rules_inv (t :: rest) (fun s => isRule s ∨ s = []) (fun _ => .inl)) hs new_ne (by
      intro r hr
      rw [new_recs] at hr
      rw [List.mem_singleton.1 hr]; exact .inr rfl)
    dsimp only at h1
    have h2 : ∀ r ∈ (post t e1).recs, isRule r.rules ∨ r.rules = [] := by
      obtain ⟨l, o, h3⟩ := split_last _ hne
      rw [post_recs t e1 l o h3]
      rw [h3] at h1
      intro r hr
      rcases List.mem_append.1 hr with hr | hr
      · exact h1 r (by simp [hr])
      · rw [List.mem_singleton.1 hr]
        split
        · exact .inl (.inr (.inl rfl))
        · exact h1 o (by simp)
    rw [fin_elements] at hr
    rcases List.mem_append.1 hr with hr | hr
    · exact h2 r (List.mem_reverse.1 hr)
    · rw [List.mem_singleton.1 hr]
      show isRule (((post t e1).recs.head?.map (·.rules)).getD []) ∨ ((post t e1).recs.head?.map (·.rules)).getD [] = []
      cases hh : (post t e1).recs with
      | nil => exact .inr rfl
      | cons x l => exact h2 x (by rw [hh]; simp)

/-- **C25** If field 15 starts with a SPEED/LEVEL or SPEED/VFR, every element has one of the four rules. -/
theorem c25_start {frames : Nat} {tokens : Tokens} {t : Token} (ht : (typedTokens tokens).head? = some t)
    (hb : t.base = .SPEED_ALTITUDE ∨ t.base = .SPEED_VFR) {b : Bool} {e' : Ers F}
    (h : parseF15 frames Ers.new tokens = .ok (b, e')) {r : Record F} (hr : r ∈ e'.elements) : isRule r.rules := by
  rcases parse_cases new_ne h with ⟨h, _⟩ | ⟨t', rest, e1, htt, hrun, hne, _, rfl⟩
  · rw [h] at ht; simp at ht
  · rw [htt] at ht
    simp only [List.head?_cons, Option.some.injEq] at ht
    subst ht
    obtain ⟨ts1, hs⟩ := hrun
    have h2 : ∀ r ∈ (post t' e1).recs, isRule r.rules := by
      rcases hb with hb | hb
      · have hf : firstAct t' = .level t' := by unfold firstAct; rw [hb]
        rw [hf] at hs
        have h1 := Star.elem_inv (rules_inv (t' :: rest) isRule (fun _ h => h)) hs (by
            show (Act.level t').recs [adepRec F] ≠ []
            simp [Act.recs, mapHead]) (by
          intro r hr
          have hr' : r ∈ [Act.tweak (.level t') (adepRec F)] := hr
          rw [List.mem_singleton.1 hr']; exact .inl rfl)
        unfold post
        rw [if_neg (by rw [hb]; decide)]
        exact h1
      · have hf : firstAct t' = .vfr t' := by unfold firstAct; rw [hb]
        rw [hf] at hs
        have hi := rules_inv (F := F) (t' :: rest) isRule (fun _ h => h)
        have h1 : ∃ l o, e1.recs = l ++ [o] ∧ l ≠ [] ∧ ∀ r ∈ l, isRule r.rules := by
          refine Star.recs_inv (P := fun r => ∃ l o, r = l ++ [o] ∧ l ≠ [] ∧ ∀ r ∈ l, isRule r.rules) ?_ ?_ hs ?_ ?_
          · intro a p rs l' a1 a2 a3 ⟨l, o, h1, h2, h3⟩ _ k
            rw [h1] at k
            obtain ⟨l1, l2, rfl, k1, k2⟩ := k.append_left
            cases l with
            | nil => exact absurd rfl h2
            | cons x l =>
              have hx : p = x := (List.cons.inj h1).1
              subst hx
              cases k2 with
              | @cons _ o' _ _ _ k2 =>
                cases k2
                refine ⟨a.newRec p :: l1, o', rfl, by simp, ?_⟩
                intro r hr
                rcases List.mem_cons.1 hr with rfl | hr
                · exact hi.push a p a1 a2 a3 (h3 p (by simp))
                · obtain ⟨y, hy, hk⟩ := k1.mem_right hr
                  exact hi.keep y r hk (h3 y hy)
          · intro a p rs a1 a2 a3 ⟨l, o, h1, h2, h3⟩
            cases l with
            | nil => exact absurd rfl h2
            | cons x l =>
              obtain ⟨rfl, rfl⟩ := List.cons.inj h1
              refine ⟨a.tweak p :: l, o, rfl, by simp, ?_⟩
              intro r hr
              rcases List.mem_cons.1 hr with rfl | hr
              · exact hi.note a p a1 a2 a3 (h3 p (by simp))
              · exact h3 r (by simp [hr])
          · show (Act.vfr t').recs [adepRec F] ≠ []
            exact Act.recs_ne _ _ (by simp)
          · exact ⟨[_], _, rfl, by simp, by intro r hr; rw [List.mem_singleton.1 hr]; exact .inr (.inl rfl)⟩
        obtain ⟨l, o, h3, h4, h5⟩ := h1
        rw [post_recs t' e1 l o h3, if_pos hb]
        intro r hr
        rcases List.mem_append.1 hr with hr | hr
        · exact h5 r hr
        · rw [List.mem_singleton.1 hr]; exact .inr (.inl rfl)
    rw [fin_elements] at hr
    rcases List.mem_append.1 hr with hr | hr
    · exact h2 r (List.mem_reverse.1 hr)
    · rw [List.mem_singleton.1 hr]
      show isRule (((post t' e1).recs.head?.map (·.rules)).getD [])
      cases hh : (post t' e1).recs with
      | nil =>
        obtain ⟨l, o, h3⟩ := split_last _ hne
        rw [post_recs t' e1 l o h3] at hh; simp at hh
      | cons x l => exact h2 x (by rw [hh]; simp)

/-- All four rules occur. -/
example : check (py! "N0450F350 ABC OAT FREE GAT DEF IFPSTOP FREE IFPSTART GHI VFR ANY")
    (fun b e => b && decide (e.elements.map (·.rules) = [py! "IFR", py! "IFR", py! "OAT", py! "IFR", py! "IFPS", py! "IFR",
      py! "VFR", py! "VFR"])) = true := by decide +kernel
/-- Empty rules occur after a wrong start. -/
example : check (py! "XYZ") (fun b e => !b && decide (e.elements.map (·.rules) = [[], []])) = true := by decide +kernel

/-! ### C43 -/

/-- **C43** For an index in range `get_element_at` returns the element. -/
theorem c43_in_range (e : Ers F) (i : Nat) (h : i < e.elements.length) :
    e.getElementAt i = .ok e.elements[i]? := by
  have hn : e.numberOfElements = e.elements.length := by simp [Ers.numberOfElements, Ers.elements]
  unfold Ers.getElementAt
  rw [if_neg (by rw [hn]; omega)]
  exact pyGet_map h

/-- **C43 (partial)** For every index that is negative or greater than the number of elements it returns `None`.
What is missing: the index equal to the number of elements (`c43_false`). -/
theorem c43_partial (e : Ers F) (i : Int) (h : i < 0 ∨ i > e.elements.length) : e.getElementAt i = .ok none := by
  have hn : e.numberOfElements = e.elements.length := by simp [Ers.numberOfElements, Ers.elements]
  unfold Ers.getElementAt
  rw [if_pos (by rw [hn]; exact h)]

/-- **C43 (refutation)** For every sequence, the index equal to the number of elements raises `IndexError`. -/
theorem c43_false (e : Ers F) : e.getElementAt e.elements.length = .error .indexError := by
  have hn : e.numberOfElements = e.elements.length := by simp [Ers.numberOfElements, Ers.elements]
  unfold Ers.getElementAt
  rw [if_neg (by rw [hn]; omega), pyGet_ge (Nat.le_refl _)]
  rfl

/-- **C43** First, last and previous to last element. -/
theorem c43_ends (e : Ers F) :
    (e.elements ≠ [] → e.getFirstElement = .ok e.elements.head?) ∧
    e.getLastElement = .ok e.elements.getLast? ∧
    e.getPreviousToLastElement = .ok e.elements.dropLast.getLast? := by
  have hn : e.numberOfElements = e.elements.length := by simp [Ers.numberOfElements, Ers.elements]
  refine ⟨fun h => ?_, ?_, ?_⟩
  · have : 0 < e.elements.length := List.length_pos_iff.2 h
    unfold Ers.getFirstElement
    have := c43_in_range e 0 this
    rw [show ((0 : Nat) : Int) = 0 from rfl] at this
    rw [this, List.head?_eq_getElem?]
  · unfold Ers.getLastElement
    split
    · rename_i h
      have := c43_in_range e (e.elements.length - 1) (by omega)
      rw [hn, ← Int.ofNat_one, ← Int.ofNat_sub (by omega)] at *
      rw [this, List.getLast?_eq_getElem?]
    · rename_i h
      have : e.elements = [] := List.length_eq_zero_iff.1 (by omega)
      rw [this]; rfl
  · unfold Ers.getPreviousToLastElement
    by_cases h : 2 ≤ e.elements.length
    · have := c43_in_range e (e.elements.length - 2) (by omega)
      rw [hn, show ((e.elements.length : Int) - 2) = ((e.elements.length - 2 : Nat) : Int) by omega, this,
        List.getLast?_eq_getElem?, List.length_dropLast, List.getElem?_dropLast]
      rw [if_pos (by omega), Nat.sub_sub]
    · rw [c43_partial e _ (.inl (by omega))]
      have : e.elements.dropLast = [] := List.length_eq_zero_iff.1 (by rw [List.length_dropLast]; omega)
      rw [this]; rfl

/-- The two elements of a new sequence with an ADES, and the index 2. -/
example : ((Ers.new : Ers Rat).addDummyAdes.getElementAt 1).toOption.map (·.map (·.name)) = some (some (py! "ADES")) := by
  decide +kernel
example : (Ers.new : Ers Rat).addDummyAdes.getElementAt 2 = .error .indexError := rfl

end F15
