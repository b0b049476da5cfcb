import Verif.Lemmas.Causal
import Verif.Lemmas.BadCruise
import Verif.Props.Ranges
import Verif.Spec.Kinds
import Verif.Spec.Names
/-!
# Tokens of the same kinds are read in the same way
-/

namespace F15
open Spec

set_option linter.unusedSectionVars false
set_option linter.unusedSimpArgs false
variable {F : Type} [PyFloat F]

/-! ### Errors -/

theorem Spec.SameErrors.append {T U : List Token} {a b c d : List (Record F)} (h : SameErrors T U a b) (k : SameErrors T U c d) :
    SameErrors T U (a ++ c) (b ++ d) := by
  induction h with
  | nil => exact k
  | same h1 h2 h3 _ ih => exact .same h1 h2 h3 ih
  | left h1 _ ih => exact .left h1 ih
  | right h1 _ ih => exact .right h1 ih

theorem Spec.SameErrors.reverse {T U : List Token} {a b : List (Record F)} (h : SameErrors T U a b) :
    SameErrors T U a.reverse b.reverse := by
  induction h with
  | nil => exact .nil
  | same h1 h2 h3 _ ih => rw [List.reverse_cons, List.reverse_cons]; exact ih.append (.same h1 h2 h3 .nil)
  | @left x xs ys h1 _ ih =>
    rw [List.reverse_cons]
    have := ih.append (.left h1 .nil); rwa [List.append_nil] at this
  | @right y xs ys h1 _ ih =>
    rw [List.reverse_cons]
    have := ih.append (.right h1 .nil); rwa [List.append_nil] at this

theorem sameErrors_left {T U : List Token} {a b c : List (Record F)} (h : ∀ x ∈ a, NumberError T x) (k : SameErrors T U b c) :
    SameErrors T U (a ++ b) c := by
  induction a with
  | nil => exact k
  | cons x a ih => exact .left (h x (by simp)) (ih fun y hy => h y (by simp [hy]))

theorem sameErrors_right {T U : List Token} {a b c : List (Record F)} (h : ∀ x ∈ a, NumberError U x) (k : SameErrors T U b c) :
    SameErrors T U b (a ++ c) := by
  induction a with
  | nil => exact k
  | cons x a ih => exact .right (h x (by simp)) (ih fun y hy => h y (by simp [hy]))

/-! ### States -/

/-- The pairs of facing tokens. -/
structure Pairs (Z : List (Token × Token)) : Prop where
  fst : ∀ z ∈ Z, Typed z.1
  snd : ∀ z ∈ Z, Typed z.2
  alike : ∀ z ∈ Z, Alike z.1 z.2

abbrev lefts (Z : List (Token × Token)) : List Token := Z.map (·.1)
abbrev rights (Z : List (Token × Token)) : List Token := Z.map (·.2)

theorem facing {Z : List (Token × Token)} {z : Token × Token} (h : z ∈ Z) : Facing (lefts Z) (rights Z) z.1 z.2 := by
  obtain ⟨i, hi, rfl⟩ := List.getElem_of_mem h
  exact ⟨i, by simp [hi], by simp [hi]⟩

/-- Two elements agree as far as the words their attributes come from agree. -/
structure SameFrom (T U : List Token) (r s : Record F) : Prop where
  speeds : Agree SpeedWord T U → SameSpeeds r s
  places : Agree PlaceWord T U → SamePosition r s
  stays : Agree StayWord T U → r.stayTime = s.stayTime
  clean : r.errorText = s.errorText

/-- The messages that depend on what the words say. -/
def Free (T U : List Token) (n : Nat) : Prop := (n = 40 ∧ ¬ Agree SpeedWord T U) ∨ (n ∈ [42, 43, 44, 45, 46] ∧ ¬ Agree PlaceWord T U)

/-- States of the same shape. -/
structure Kin (Z : List (Token × Token)) (e f : Ers F) : Prop where
  recs : All2 (SameShape (lefts Z) (rights Z)) e.recs f.recs
  errs : SameErrors (lefts Z) (rights Z) e.errs f.errs
  ne : e.recs ≠ []
  vals : All2 (SameFrom (lefts Z) (rights Z)) e.recs f.recs
  msgs : SameErrorsBut (Free (lefts Z) (rights Z)) (lefts Z) (rights Z) e.errs f.errs

theorem All2.len {α β : Type} {R : α → β → Prop} {l : List α} {l' : List β} (h : All2 R l l') : l.length = l'.length := by
  induction h with
  | nil => rfl
  | cons _ _ ih => simp [ih]

theorem Kin.ne' {Z : List (Token × Token)} {e f : Ers F} (h : Kin Z e f) : f.recs ≠ [] := by
  intro h0
  have := h.recs.len
  rw [h0] at this
  exact h.ne (List.length_eq_zero_iff.1 this)

theorem Kin.head {Z : List (Token × Token)} {e f : Ers F} (h : Kin Z e f) :
    SameShape (lefts Z) (rights Z) (e.recs.head h.ne) (f.recs.head h.ne') := by
  obtain ⟨h1, h2, h3, _, _⟩ := h
  obtain ⟨er, ee, ed⟩ := e
  obtain ⟨fr, fe, fd⟩ := f
  cases h1 with
  | nil => exact absurd rfl h3
  | cons h _ => exact h

/-- The action with the tokens paired. -/
inductive KinAct (Z : List (Token × Token)) : Act → Act → Prop
  | err {z} (n) : z ∈ Z → (errorMessage n).isSome = true → KinAct Z (.err z.1 n) (.err z.2 n)
  | point {z} : z ∈ Z → KinAct Z (.point z.1) (.point z.2)
  | vToI {z} : z ∈ Z → KinAct Z (.vToI z.1) (.vToI z.2)
  | vToIToV {z} : z ∈ Z → KinAct Z (.vToIToV z.1) (.vToIToV z.2)
  | route {z} : z ∈ Z → KinAct Z (.route z.1) (.route z.2)
  | plain {z} : z ∈ Z → KinAct Z (.plain z.1) (.plain z.2)
  | brk {z} : z ∈ Z → KinAct Z (.brk z.1) (.brk z.2)
  | sid {z} : z ∈ Z → KinAct Z (.sid z.1) (.sid z.2)
  | star {z} : z ∈ Z → KinAct Z (.star z.1) (.star z.2)
  | ccPoint {z} : z ∈ Z → KinAct Z (.ccPoint z.1) (.ccPoint z.2)
  | vfr {z} : z ∈ Z → z.1.base = .SPEED_VFR → KinAct Z (.vfr z.1) (.vfr z.2)
  | level {z} : z ∈ Z → z.1.base = .SPEED_ALTITUDE → KinAct Z (.level z.1) (.level z.2)
  | levels {z} : z ∈ Z → z.1.base = .SPEED_ALTITUDE_ALTITUDE → KinAct Z (.levels z.1) (.levels z.2)
  | plus {z} : z ∈ Z → z.1.base = .SPEED_ALTITUDE_PLUS → KinAct Z (.plus z.1) (.plus z.2)
  | text {z} : z ∈ Z → KinAct Z (.text z.1) (.text z.2)
  | stay {z} : z ∈ Z → z.1.base = .STAY_TIME → KinAct Z (.stay z.1) (.stay z.2)

/-- Keeps the shape. -/
theorem keep_same {T U : List Token} {r r' s s' : Record F} (h : SameShape T U r s) (k1 : Keep r r') (k2 : Keep s s') :
    SameShape T U r' s' := by
  unfold Keep at k1 k2
  rw [k1, k2]
  exact h

theorem keeps_same {T U : List Token} {a a' b b' : List (Record F)} (h : All2 (SameShape T U) a b) (k1 : All2 Keep a a') (k2 : All2 Keep b b') :
    All2 (SameShape T U) a' b' := by
  induction h generalizing a' b' with
  | nil => cases k1; cases k2; exact .nil
  | cons h _ ih =>
    cases k1 with
    | cons k1 l1 => cases k2 with
      | cons k2 l2 => exact .cons (keep_same h k1 k2) (ih l1 l2)

theorem text_sid {t : Token} (h : Typed t) : t.text = py! "SID" ↔ t.base = .SID := by
  constructor
  · intro ht
    by_cases hb : t.base = .TOO_LONG
    · exfalso
      have hl := (c08_too_long t).1 (by unfold Typed at h; rw [h]; exact hb)
      rw [ht] at hl; revert hl; decide
    · have := typed_types h hb
      rw [ht] at this
      have h2 : getTokenType (py! "SID") = (.SID, .SID_LITERAL) := by decide +kernel
      rw [h2] at this
      exact (Prod.mk.inj this).1.symm
  · intro hb
    obtain ⟨w, hw, hs⟩ := typed_word h (fun b _ => b == .SID) (fun w => decide (w = litW (py! "SID"))) (by decide +kernel) (by simp [hb]) rfl rfl
    simp at hw
    subst hw
    exact (lit_iff _ _).1 hs

theorem text_star {t : Token} (h : Typed t) : t.text = py! "STAR" ↔ t.base = .STAR := by
  constructor
  · intro ht
    by_cases hb : t.base = .TOO_LONG
    · exfalso
      have hl := (c08_too_long t).1 (by unfold Typed at h; rw [h]; exact hb)
      rw [ht] at hl; revert hl; decide
    · have := typed_types h hb
      rw [ht] at this
      have h2 : getTokenType (py! "STAR") = (.STAR, .STAR_LITERAL) := by decide +kernel
      rw [h2] at this
      exact (Prod.mk.inj this).1.symm
  · intro hb
    obtain ⟨w, hw, hs⟩ := typed_word h (fun b _ => b == .STAR) (fun w => decide (w = litW (py! "STAR"))) (by decide +kernel) (by simp [hb]) rfl rfl
    simp at hw
    subst hw
    exact (lit_iff _ _).1 hs

/-- Actions other than errors complain only about numbers. -/
theorem nums_number {a : Act} (ht : Typed a.tok) (ok : ∀ t m, a ≠ .err t m) {n : Nat} (hn : n ∈ a.nums) :
    n ∈ [40, 42, 43, 44, 45, 46] := by
  have pn : ∀ t, Typed t → n ∈ posNums t → n ∈ [40, 42, 43, 44, 45, 46] := by
    intro t ht h
    have hf := (range_iff ht n).1 h
    have := fault_num hf
    have : n = 42 ∨ n = 43 ∨ n = 44 ∨ n = 45 ∨ n = 46 := by omega
    rcases this with h | h | h | h | h <;> simp [h]
  have gn : ∀ s, n ∈ granErr s → n ∈ [40, 42, 43, 44, 45, 46] := by
    intro s h
    unfold granErr at h
    split at h <;> simp at h
    simp [h]
  cases a with
  | err t m => exact absurd rfl (ok t m)
  | point t | vToI t | ccPoint t => exact pn t ht hn
  | level t | plus t => exact gn _ hn
  | levels t => exact (List.mem_append.1 hn).elim (gn _) (gn _)
  | _ => cases hn

theorem KinAct.tok {Z : List (Token × Token)} {a b : Act} (h : KinAct Z a b) : (a.tok, b.tok) ∈ Z := by
  cases h <;> assumption

theorem posHead_valid (t : Token) (r : Record F) : (posHead t r).latLongValid =
    (r.latLongValid || [SubType.LL_DEG, .LL_MIN, .LLBD_DEG, .LLBD_MIN].contains t.sub) := by
  unfold posHead
  split <;> simp_all [setPos, project]

theorem posHead_core (t : Token) (r : Record F) : (posHead t r).base = r.base ∧ (posHead t r).sub = r.sub ∧ (posHead t r).rules = r.rules ∧
    (posHead t r).start = r.start ∧ (posHead t r).stop = r.stop := by
  unfold posHead
  split <;> simp [setPos, project]

theorem fresh_core (p : Record F) (t : Token) : (fresh p t).base = t.base ∧ (fresh p t).sub = t.sub ∧ (fresh p t).rules = p.rules ∧
    (fresh p t).start = t.start ∧ (fresh p t).stop = t.stop ∧ (fresh p t).latLongValid = false := by
  unfold fresh carry
  simp [Record.new]

theorem same_new {Z : List (Token × Token)} (hz : Pairs Z) {z : Token × Token} (h : z ∈ Z) {r s : Record F} (h1 : r.base = s.base)
    (h2 : r.sub = s.sub) (h3 : r.rules = s.rules) (h4 : r.latLongValid = s.latLongValid) (h5 : r.start = z.1.start) (h6 : r.stop = z.1.stop)
    (h7 : s.start = z.2.start) (h8 : s.stop = z.2.stop) : SameShape (lefts Z) (rights Z) r s :=
  ⟨h1, h2, h3, h4, .inl ⟨z.1, z.2, facing h, h5, h6, h7, h8⟩⟩

theorem setLevel_core (s : Str) (r : Record F) : (setLevel s r).base = r.base ∧ (setLevel s r).sub = r.sub ∧ (setLevel s r).rules = r.rules ∧
    (setLevel s r).latLongValid = r.latLongValid ∧ (setLevel s r).start = r.start ∧ (setLevel s r).stop = r.stop ∧ (setLevel s r).name = r.name :=
  ⟨rfl, rfl, rfl, rfl, rfl, rfl, rfl⟩

/-- New elements. -/
theorem same_newRec {Z : List (Token × Token)} (hz : Pairs Z) {a b : Act} (h : KinAct Z a b) (hr : a.records = true) {p q : Record F}
    (hp : p.rules = q.rules) : SameShape (lefts Z) (rights Z) (a.newRec p) (b.newRec q) := by
  have al := hz.alike
  cases h with
  | err | level | levels | plus | text | stay => cases hr
  | point h =>
    refine same_new hz h ?_ ?_ ?_ ?_ ?_ ?_ ?_ ?_ <;> simp [Act.newRec, posHead_core, posHead_valid, toIfr, Record.setRules, fresh_core, (al _ h).1, (al _ h).2]
  | vToI h =>
    refine same_new hz h ?_ ?_ ?_ ?_ ?_ ?_ ?_ ?_ <;> simp [Act.newRec, posHead_core, posHead_valid, toIfr, Record.setRules, fresh_core, (al _ h).1, (al _ h).2]
  | vToIToV h | route h | plain h =>
    refine same_new hz h ?_ ?_ ?_ ?_ ?_ ?_ ?_ ?_ <;> simp [Act.newRec, toIfr, Record.setRules, fresh_core, (al _ h).1, (al _ h).2, hp]
  | ccPoint h =>
    refine same_new hz h ?_ ?_ ?_ ?_ ?_ ?_ ?_ ?_ <;> simp [Act.newRec, posHead_core, posHead_valid, toIfr, Record.setRules, fresh_core, (al _ h).1, (al _ h).2, hp]
  | @brk z h =>
    have hs := (al _ h).2
    refine same_new hz h ?_ ?_ ?_ ?_ ?_ ?_ ?_ ?_ <;> simp only [Act.newRec, hs, brkRules] <;> split <;>
      simp_all [Record.setRules, fresh_core, (al _ h).1, (al _ h).2, hp]
  | @sid z h =>
    have ht : z.1.text = py! "SID" ↔ z.2.text = py! "SID" := by
      rw [text_sid (hz.fst _ h), text_sid (hz.snd _ h), (al _ h).1]
    refine same_new hz h ?_ ?_ ?_ ?_ ?_ ?_ ?_ ?_ <;> simp [Act.newRec, asSid, fresh_core, ht, hp]
  | @star z h =>
    have ht : z.1.text = py! "STAR" ↔ z.2.text = py! "STAR" := by
      rw [text_star (hz.fst _ h), text_star (hz.snd _ h), (al _ h).1]
    refine same_new hz h ?_ ?_ ?_ ?_ ?_ ?_ ?_ ?_ <;> simp [Act.newRec, asStar, fresh_core, ht, hp]
  | @vfr z h =>
    exact same_new hz h (al _ h).1 (al _ h).2 rfl rfl rfl rfl rfl rfl

theorem tweak_core (a : Act) (r : Record F) : (a.tweak r).base = r.base ∧ (a.tweak r).sub = r.sub ∧
    (a.tweak r).latLongValid = r.latLongValid ∧ (a.tweak r).start = r.start ∧ (a.tweak r).stop = r.stop ∧ (a.tweak r).name = r.name := by
  cases a <;> first
    | exact ⟨rfl, rfl, rfl, rfl, rfl, rfl⟩
    | (simp only [Act.tweak]; unfold Record.appendBreakText; split <;> exact ⟨rfl, rfl, rfl, rfl, rfl, rfl⟩)

/-! ### The same values -/

section Values
variable {T U : List Token}

theorem mapHead_vals {g g' : Record F → Record F} (hg : ∀ r s, SameFrom T U r s → SameFrom T U (g r) (g' s)) {l l' : List (Record F)}
    (h : All2 (SameFrom T U) l l') : All2 (SameFrom T U) (mapHead g l) (mapHead g' l') := by
  cases h with
  | nil => exact .nil
  | cons h k => exact .cons (hg _ _ h) k

theorem pushRec_vals {t u : Token} {l l' : List (Record F)} (h : All2 (SameFrom T U) l l') :
    All2 (SameFrom T U) (pushRec t l) (pushRec u l') := by
  cases h with
  | nil => exact .nil
  | cons h k =>
    refine .cons ⟨fun hs => ?_, fun _ => ⟨rfl, rfl, rfl, rfl, rfl⟩, fun _ => rfl, rfl⟩ (.cons h k)
    obtain ⟨h1, h2, h3, h4, _, _⟩ := h.speeds hs
    exact ⟨h1, h2, h3, h4, rfl, rfl⟩

theorem azimuth_eq {l l' : List (Record F)} (hv : All2 (fun r s => r.latLongValid = s.latLongValid) l l') (h : All2 (SameFrom T U) l l') :
    All2 (SameFrom T U) (azimuthList l) (azimuthList l') := by
  have az : ∀ {a b c d : Record F}, SameFrom T U a b → SameFrom T U c d → SameFrom T U (setAzimuthAndDistance a c) (setAzimuthAndDistance b d) := by
    intro a b c d h1 h2
    refine ⟨h1.speeds, fun hp => ?_, h1.stays, h1.clean⟩
    obtain ⟨a1, a2, a3, _, _⟩ := h1.places hp
    obtain ⟨b1, b2, b3, _, _⟩ := h2.places hp
    simp [SamePosition, setAzimuthAndDistance, a1, a2, a3, b1, b2]
  cases h with
  | nil => exact .nil
  | cons h1 k => cases k with
    | nil => exact .cons h1 .nil
    | cons h2 k =>
      cases hv with
      | cons v1 hv => cases hv with
        | cons v2 hv => cases k with
          | nil =>
            simp only [azimuthList, v1, v2]
            split
            · split
              · exact .cons h1 (.cons (az h2 h1) .nil)
              · exact .cons h1 (.cons h2 .nil)
            · exact .cons h1 (.cons h2 .nil)
          | cons h3 k => cases hv with
            | cons v3 hv =>
              simp only [azimuthList, v1, v2, v3]
              split
              · split
                · exact .cons h1 (.cons (az h2 h1) (.cons h3 k))
                · split
                  · exact .cons h1 (.cons h2 (.cons (az h3 h1) k))
                  · exact .cons h1 (.cons h2 (.cons h3 k))
              · exact .cons h1 (.cons h2 (.cons h3 k))

theorem azimuth_valid (l : List (Record F)) : (azimuthList l).map (·.latLongValid) = l.map (·.latLongValid) := by
  unfold azimuthList
  repeat' split
  all_goals rfl

theorem all2_map {α β γ : Type} {f : α → γ} {g : β → γ} {a : List α} {b : List β} : All2 (fun x y => f x = g y) a b ↔ a.map f = b.map g := by
  constructor
  · intro h
    induction h with
    | nil => rfl
    | cons h _ ih => rw [List.map_cons, List.map_cons, h, ih]
  · intro h
    induction a generalizing b with
    | nil => cases b with
      | nil => exact .nil
      | cons => cases h
    | cons x a ih => cases b with
      | nil => cases h
      | cons y b =>
        rw [List.map_cons, List.map_cons] at h
        injection h with h1 h2
        exact .cons h1 (ih h2)

theorem copyPrev_vals {l l' : List (Record F)} (h : All2 (SameFrom T U) l l') : All2 (SameFrom T U) (copyPrev l) (copyPrev l') := by
  cases h with
  | nil => exact .nil
  | cons h1 k => cases k with
    | nil => exact .cons h1 .nil
    | cons h2 k =>
      refine .cons h1 (.cons ⟨fun hs => ?_, h2.places, h2.stays, h2.clean⟩ k)
      obtain ⟨a1, a2, a3, a4, _, _⟩ := h1.speeds hs
      obtain ⟨_, _, _, _, b5, b6⟩ := h2.speeds hs
      exact ⟨a1, a2, a3, a4, b5, b6⟩

theorem posRecs_vals {t u : Token} (h2 : t.sub = u.sub) (hf : Facing T U t u) {l l' : List (Record F)}
    (hv : l.map (·.latLongValid) = l'.map (·.latLongValid)) (h : All2 (SameFrom T U) l l') :
    All2 (SameFrom T U) (posRecs t l) (posRecs u l') := by
  have sp : ∀ (a b c d : F), (Agree PlaceWord T U → a = c ∧ b = d) → ∀ (r s : Record F), SameFrom T U r s →
      SameFrom T U (setPos a b r) (setPos c d s) := by
    intro a b c d he r s h
    refine ⟨h.speeds, fun hp => ?_, h.stays, h.clean⟩
    obtain ⟨_, _, _, h4, h5⟩ := h.places hp
    obtain ⟨rfl, rfl⟩ := he hp
    exact ⟨rfl, rfl, rfl, h4, h5⟩
  have pr : ∀ (x y : Str), (Agree PlaceWord T U → x = y) → ∀ (r s : Record F), SameFrom T U r s → SameFrom T U (project x r) (project y s) := by
    intro x y he r s h
    refine ⟨h.speeds, fun hp => ?_, h.stays, h.clean⟩
    obtain ⟨h1, h2, h3, h4, h5⟩ := h.places hp
    rw [he hp]
    simp [SamePosition, project, h1, h2, h3, h4, h5]
  have mv : ∀ {l l' : List (Record F)} {a b c d : F}, l.map (·.latLongValid) = l'.map (·.latLongValid) →
      (mapHead (setPos a b) l).map (·.latLongValid) = (mapHead (setPos c d) l').map (·.latLongValid) := by
    intro l l' a b c d h
    cases l <;> cases l' <;> simp_all [mapHead, setPos]
  have mp : ∀ {l l' : List (Record F)} {a b : Str}, l.map (·.latLongValid) = l'.map (·.latLongValid) →
      (mapHead (project a) l).map (·.latLongValid) = (mapHead (project b) l').map (·.latLongValid) := by
    intro l l' a b h
    cases l <;> cases l' <;> simp_all [mapHead, project]
  have az : ∀ {l l' : List (Record F)}, l.map (·.latLongValid) = l'.map (·.latLongValid) →
      (azimuthList l).map (·.latLongValid) = (azimuthList l').map (·.latLongValid) := by
    intro l l' h; rw [azimuth_valid, azimuth_valid, h]
  unfold posRecs
  rw [← h2]
  have ht : t.sub ∈ [.LL_DEG, .LL_MIN, .LLBD_DEG, .LLBD_MIN, .PRP_BD] → Agree PlaceWord T U → t.text = u.text := fun hs ha => ha t u hf hs
  split
  · rename_i hs
    have ht := ht (by rw [hs]; decide)
    exact azimuth_eq (all2_map.2 (mv hv)) (mapHead_vals (sp _ _ _ _ fun ha => by rw [ht ha]; exact ⟨rfl, rfl⟩) h)
  · rename_i hs
    have ht := ht (by rw [hs]; decide)
    exact azimuth_eq (all2_map.2 (mv hv)) (mapHead_vals (sp _ _ _ _ fun ha => by rw [ht ha]; exact ⟨rfl, rfl⟩) h)
  · rename_i hs
    have ht := ht (by rw [hs]; decide)
    exact azimuth_eq (all2_map.2 (mp (az (mv hv)))) (mapHead_vals (pr _ _ ht)
      (azimuth_eq (all2_map.2 (mv hv)) (mapHead_vals (sp _ _ _ _ fun ha => by rw [ht ha]; exact ⟨rfl, rfl⟩) h)))
  · rename_i hs
    have ht := ht (by rw [hs]; decide)
    exact azimuth_eq (all2_map.2 (mp (az (mv hv)))) (mapHead_vals (pr _ _ ht)
      (azimuth_eq (all2_map.2 (mv hv)) (mapHead_vals (sp _ _ _ _ fun ha => by rw [ht ha]; exact ⟨rfl, rfl⟩) h)))
  · exact h

end Values

theorem vals_act {Z : List (Token × Token)} (hz : Pairs Z) {a b : Act} (h : KinAct Z a b) {l l' : List (Record F)}
    (hv : l.map (·.latLongValid) = l'.map (·.latLongValid)) (k : All2 (SameFrom (lefts Z) (rights Z)) l l') :
    All2 (SameFrom (lefts Z) (rights Z)) (a.recs l) (b.recs l') := by
  have ru : ∀ (x : Str) (r s : Record F), SameFrom (lefts Z) (rights Z) r s → SameFrom (lefts Z) (rights Z) (r.setRules x) (s.setRules x) :=
    fun x r s h => ⟨h.1, h.2, h.3, h.4⟩
  have lv : ∀ (x y : Str), (Agree SpeedWord (lefts Z) (rights Z) → x = y) → ∀ (r s : Record F), SameFrom (lefts Z) (rights Z) r s →
      SameFrom (lefts Z) (rights Z) (setLevel x r) (setLevel y s) := by
    intro x y he r s h
    refine ⟨fun hs => ?_, h.places, h.stays, h.clean⟩
    obtain ⟨h1, h2, _, _, h5, h6⟩ := h.speeds hs
    rw [he hs]
    exact ⟨h1, h2, rfl, rfl, h5, h6⟩
  have cr : ∀ (x y : Str), (Agree SpeedWord (lefts Z) (rights Z) → x = y) → ∀ (r s : Record F), SameFrom (lefts Z) (rights Z) r s →
      SameFrom (lefts Z) (rights Z) (setCruise x r) (setCruise y s) := by
    intro x y he r s h
    refine ⟨fun hs => ?_, h.places, h.stays, h.clean⟩
    obtain ⟨h1, h2, h3, h4, _, _⟩ := h.speeds hs
    rw [he hs]
    exact ⟨h1, h2, h3, h4, rfl, rfl⟩
  have pl : ∀ (x : Str) (r s : Record F), SameFrom (lefts Z) (rights Z) r s → SameFrom (lefts Z) (rights Z) (setPlus x r) (setPlus x s) := by
    intro x r s h
    refine ⟨fun hs => ?_, h.places, h.stays, h.clean⟩
    obtain ⟨h1, h2, h3, h4, _, h6⟩ := h.speeds hs
    exact ⟨h1, h2, h3, h4, rfl, h6⟩
  have sp : ∀ (x y : Str), (Agree SpeedWord (lefts Z) (rights Z) → x = y) → ∀ (r s : Record F), SameFrom (lefts Z) (rights Z) r s →
      SameFrom (lefts Z) (rights Z) (setSpeed x r) (setSpeed y s) := by
    intro x y he r s h
    refine ⟨fun hs => ?_, h.places, h.stays, h.clean⟩
    obtain ⟨_, _, h3, h4, h5, h6⟩ := h.speeds hs
    rw [he hs]
    exact ⟨rfl, by show speedSi F y r.altitudeSi = speedSi F y s.altitudeSi; rw [h4], h3, h4, h5, h6⟩
  have al := hz.alike
  have sw : ∀ {z : Token × Token}, z ∈ Z → SpeedWord z.1 → Agree SpeedWord (lefts Z) (rights Z) → z.1.text = z.2.text :=
    fun h hb ha => ha _ _ (facing h) hb
  have ph : ∀ {t u : Token}, (pushRec t l).map (·.latLongValid) = (pushRec u l').map (·.latLongValid) := by
    intro t u
    cases l <;> cases l' <;> simp_all [pushRec, carry, Record.new]
  have mh : ∀ {l l' : List (Record F)}, l.map (·.latLongValid) = l'.map (·.latLongValid) →
      (mapHead toIfr l).map (·.latLongValid) = (mapHead toIfr l').map (·.latLongValid) := by
    intro l l' h
    cases l <;> cases l' <;> simp_all [mapHead, toIfr, Record.setRules]
  cases h with
  | err => exact k
  | point h => exact posRecs_vals (al _ h).2 (facing h) (mh ph) (mapHead_vals (ru _) (pushRec_vals k))
  | vToI h => exact mapHead_vals (ru _) (posRecs_vals (al _ h).2 (facing h) ph (pushRec_vals k))
  | vToIToV h | route h => exact mapHead_vals (ru _) (pushRec_vals k)
  | plain h => exact pushRec_vals k
  | ccPoint h => exact posRecs_vals (al _ h).2 (facing h) ph (pushRec_vals k)
  | brk h =>
    refine mapHead_vals ?_ (pushRec_vals k)
    intro r s hr
    rw [(al _ h).2]
    unfold brkRules
    split
    · exact ru _ _ _ hr
    · exact ru _ _ _ hr
    · exact ru _ _ _ hr
    · exact hr
  | @sid z h => exact mapHead_vals (g := asSid z.1.text) (g' := asSid z.2.text) (fun r s h => ⟨h.1, h.2, h.3, h.4⟩) (pushRec_vals k)
  | @star z h => exact mapHead_vals (g := asStar z.1.text) (g' := asStar z.2.text) (fun r s h => ⟨h.1, h.2, h.3, h.4⟩) (pushRec_vals k)
  | vfr h hb =>
    have ht := sw h (by unfold SpeedWord; rw [hb]; decide)
    refine copyPrev_vals (mapHead_vals ?_ (pushRec_vals k))
    exact fun r s hr => ru _ _ _ (sp _ _ (fun ha => by rw [ht ha]) _ _ (lv _ _ (fun _ => rfl) _ _ hr))
  | level h hb =>
    have ht := sw h (by unfold SpeedWord; rw [hb]; decide)
    exact mapHead_vals (fun r s hr => ru _ _ _ (sp _ _ (fun ha => by rw [ht ha]) _ _ (lv _ _ (fun ha => by rw [ht ha]) _ _ hr))) k
  | levels h hb =>
    have ht := sw h (by unfold SpeedWord; rw [hb]; decide)
    exact mapHead_vals (fun r s hr => ru _ _ _ (sp _ _ (fun ha => by rw [ht ha]) _ _ (cr _ _ (fun ha => by rw [ht ha]) _ _
      (lv _ _ (fun ha => by rw [ht ha]) _ _ hr)))) k
  | plus h hb =>
    have ht := sw h (by unfold SpeedWord; rw [hb]; decide)
    exact mapHead_vals (fun r s hr => ru _ _ _ (sp _ _ (fun ha => by rw [ht ha]) _ _ (pl _ _ _
      (lv _ _ (fun ha => by rw [ht ha]) _ _ hr)))) k
  | @stay z h hb =>
    refine mapHead_vals (g := setStay z.1.text) (g' := setStay z.2.text) (fun r s hr => ⟨hr.1, hr.2, fun ha => ?_, hr.4⟩) k
    show stayVal _ = stayVal _
    rw [ha _ _ (facing h) hb]
  | text h =>
    refine mapHead_vals ?_ k
    intro r s hr
    unfold Record.appendBreakText
    split <;> split <;> exact ⟨hr.1, hr.2, hr.3, hr.4⟩

theorem Spec.SameErrorsBut.append {free : Nat → Prop} {T U : List Token} {a b c d : List (Record F)} (h : SameErrorsBut free T U a b)
    (k : SameErrorsBut free T U c d) : SameErrorsBut free T U (a ++ c) (b ++ d) := by
  induction h with
  | nil => exact k
  | same h1 _ ih => exact .same h1 ih
  | left h1 h2 h3 _ ih => exact .left h1 h2 h3 ih
  | right h1 h2 h3 _ ih => exact .right h1 h2 h3 ih

theorem Spec.SameErrorsBut.reverse {free : Nat → Prop} {T U : List Token} {a b : List (Record F)} (h : SameErrorsBut free T U a b) :
    SameErrorsBut free T U a.reverse b.reverse := by
  induction h with
  | nil => exact .nil
  | same h1 _ ih => rw [List.reverse_cons, List.reverse_cons]; exact ih.append (.same h1 .nil)
  | @left x xs ys t n h1 h2 h3 _ ih =>
    rw [List.reverse_cons]
    have := ih.append (.left h1 h2 h3 .nil); rwa [List.append_nil] at this
  | @right y xs ys t n h1 h2 h3 _ ih =>
    rw [List.reverse_cons]
    have := ih.append (.right h1 h2 h3 .nil); rwa [List.append_nil] at this

theorem Spec.SameErrorsBut.mono {free free' : Nat → Prop} {T U : List Token} {a b : List (Record F)} (hf : ∀ n, free n → free' n)
    (h : SameErrorsBut free T U a b) : SameErrorsBut free' T U a b := by
  induction h with
  | nil => exact .nil
  | same h1 _ ih => exact .same h1 ih
  | left h1 h2 h3 _ ih => exact .left h1 (hf _ h2) h3 ih
  | right h1 h2 h3 _ ih => exact .right h1 (hf _ h2) h3 ih

theorem Spec.SameErrorsBut.none {free : Nat → Prop} {T U : List Token} {a b : List (Record F)} (hf : ∀ n, ¬ free n)
    (h : SameErrorsBut free T U a b) : All2 (SameError T U) a b := by
  induction h with
  | nil => exact .nil
  | same h1 _ ih => exact .cons h1 ih
  | left _ h2 => exact absurd h2 (hf _)
  | right _ h2 => exact absurd h2 (hf _)

theorem posNums_named {t u : Token} (h2 : t.sub = u.sub) (ht : PlaceWord t → t.text = u.text) : posNums t = posNums u := by
  by_cases hn : t.sub ∈ [.LL_DEG, .LL_MIN, .LLBD_DEG, .LLBD_MIN, .PRP_BD]
  · unfold posNums
    rw [← h2, ← ht hn]
  · unfold posNums
    rw [← h2]
    split
    all_goals first | rfl | (rename_i hs; rw [hs] at hn; exact absurd (by decide) hn)

theorem errs_same {free : Nat → Prop} {Z : List (Token × Token)} {t u : Token} (h : (t, u) ∈ Z) (l : List Nat)
    (hs : ∀ n ∈ l, (errorMessage n).isSome = true) :
    SameErrorsBut (F := F) free (lefts Z) (rights Z) (l.map (errRec t)).reverse (l.map (errRec u)).reverse := by
  induction l with
  | nil => exact .nil
  | cons n l ih =>
    simp only [List.map_cons, List.reverse_cons]
    refine (ih fun m hm => hs m (by simp [hm])).append (.same ⟨t, u, n, facing h, ?_, ?_⟩ .nil)
    · exact errRec_is (hs n (by simp))
    · exact errRec_is (hs n (by simp))

theorem errs_left {free : Nat → Prop} {T U : List Token} {t : Token} (h : t ∈ T) (l : List Nat)
    (hs : ∀ n ∈ l, free n ∧ (errorMessage n).isSome = true) : SameErrorsBut (F := F) free T U (l.map (errRec t)).reverse [] := by
  induction l with
  | nil => exact .nil
  | cons n l ih =>
    simp only [List.map_cons, List.reverse_cons]
    exact (ih fun m hm => hs m (by simp [hm])).append (.left h (hs n (by simp)).1 (errRec_is (hs n (by simp)).2) .nil)

theorem errs_right {free : Nat → Prop} {T U : List Token} {t : Token} (h : t ∈ U) (l : List Nat)
    (hs : ∀ n ∈ l, free n ∧ (errorMessage n).isSome = true) : SameErrorsBut (F := F) free T U [] (l.map (errRec t)).reverse := by
  induction l with
  | nil => exact .nil
  | cons n l ih =>
    simp only [List.map_cons, List.reverse_cons]
    exact (ih fun m hm => hs m (by simp [hm])).append (.right h (hs n (by simp)).1 (errRec_is (hs n (by simp)).2) .nil)

theorem errs_free {free : Nat → Prop} {Z : List (Token × Token)} {t u : Token} (h : (t, u) ∈ Z) {l m : List Nat}
    (hl : ∀ n ∈ l, free n ∧ (errorMessage n).isSome = true) (hm : ∀ n ∈ m, free n ∧ (errorMessage n).isSome = true) :
    SameErrorsBut (F := F) free (lefts Z) (rights Z) (l.map (errRec t)).reverse (m.map (errRec u)).reverse := by
  have := (errs_left (F := F) (U := rights Z) (List.mem_map.2 ⟨_, h, rfl⟩ : t ∈ lefts Z) l hl).append
    (errs_right (T := lefts Z) (List.mem_map.2 ⟨_, h, rfl⟩ : u ∈ rights Z) m hm)
  rwa [List.append_nil, List.nil_append] at this

theorem act_msgs {Z : List (Token × Token)} (hz : Pairs Z) {a b : Act} (h : KinAct Z a b) :
    SameErrorsBut (F := F) (Free (lefts Z) (rights Z)) (lefts Z) (rights Z) (a.nums.map (errRec a.tok)).reverse
      (b.nums.map (errRec b.tok)).reverse := by
  have some : ∀ n ∈ [40, 42, 43, 44, 45, 46], (errorMessage n).isSome = true := by decide
  have pos : ∀ {z : Token × Token}, z ∈ Z → SameErrorsBut (F := F) (Free (lefts Z) (rights Z)) (lefts Z) (rights Z)
      ((posNums z.1).map (errRec z.1)).reverse ((posNums z.2).map (errRec z.2)).reverse := by
    intro z hm
    have num : ∀ {t : Token} {n}, Typed t → n ∈ posNums t → n ∈ [42, 43, 44, 45, 46] := by
      intro t n ht h
      have := fault_num ((range_iff ht n).1 h)
      have : n = 42 ∨ n = 43 ∨ n = 44 ∨ n = 45 ∨ n = 46 := by omega
      rcases this with h | h | h | h | h <;> simp [h]
    have up : ∀ n ∈ [42, 43, 44, 45, 46], (errorMessage n).isSome = true := fun n h => some n (List.mem_cons_of_mem _ h)
    by_cases ha : Agree PlaceWord (lefts Z) (rights Z)
    · rw [← posNums_named (hz.alike _ hm).2 (ha _ _ (facing hm))]
      exact errs_same hm _ fun n hn => up n (num (hz.fst _ hm) hn)
    · exact errs_free hm (fun n hn => ⟨.inr ⟨num (hz.fst _ hm) hn, ha⟩, up n (num (hz.fst _ hm) hn)⟩)
        (fun n hn => ⟨.inr ⟨num (hz.snd _ hm) hn, ha⟩, up n (num (hz.snd _ hm) hn)⟩)
  have gn : ∀ (s : Str) (n : Nat), n ∈ granErr s → n = 40 := by
    intro s n h
    unfold granErr at h
    split at h <;> simp at h
    exact h
  have lev : ∀ {z : Token × Token} (g : Str → List Nat), z ∈ Z → SpeedWord z.1 → (∀ s, ∀ n ∈ g s, n = 40) →
      SameErrorsBut (F := F) (Free (lefts Z) (rights Z)) (lefts Z) (rights Z)
      ((g z.1.text).map (errRec z.1)).reverse ((g z.2.text).map (errRec z.2)).reverse := by
    intro z g hm hb hg
    by_cases ha : Agree SpeedWord (lefts Z) (rights Z)
    · rw [← ha _ _ (facing hm) hb]
      exact errs_same hm _ fun n hn => by rw [hg _ n hn]; decide
    · exact errs_free hm (fun n hn => ⟨.inl ⟨hg _ n hn, ha⟩, by rw [hg _ n hn]; decide⟩)
        (fun n hn => ⟨.inl ⟨hg _ n hn, ha⟩, by rw [hg _ n hn]; decide⟩)
  cases h with
  | err n h1 h2 => exact errs_same h1 [n] fun m hm => by rw [List.mem_singleton.1 hm]; exact h2
  | point h | vToI h | ccPoint h => exact pos h
  | level h hb =>
    exact lev (fun s => granErr (restOf s)) h (by unfold SpeedWord; rw [hb]; decide) fun s n hn => gn _ n hn
  | levels h hb =>
    exact lev (fun s => granErr (lv1Of s) ++ granErr (lv2Of s)) h (by unfold SpeedWord; rw [hb]; decide)
      fun s n hn => (List.mem_append.1 hn).elim (gn _ n) (gn _ n)
  | plus h hb =>
    exact lev (fun s => granErr (lv1Of s)) h (by unfold SpeedWord; rw [hb]; decide) fun s n hn => gn _ n hn
  | _ => exact .nil

theorem shape_valid {T U : List Token} {l l' : List (Record F)} (h : All2 (SameShape T U) l l') : l.map (·.latLongValid) = l'.map (·.latLongValid) := by
  induction h with
  | nil => rfl
  | cons h _ ih => rw [List.map_cons, List.map_cons, ih, h.2.2.2.1]

/-- Actions keep states alike. -/
theorem Kin.act {Z : List (Token × Token)} (hz : Pairs Z) {a b : Act} (h : KinAct Z a b) {e f : Ers F} (k : Kin Z e f) :
    Kin Z (a.run e) (b.run f) := by
  have hrr : a.records = b.records := by cases h <;> rfl
  refine ⟨?_, ?_, a.run_ne e k.ne, vals_act hz h (shape_valid k.recs) k.vals, ?_⟩
  · obtain ⟨k1, _, k3, _, _⟩ := k
    obtain ⟨er, ee, ed⟩ := e
    obtain ⟨fr, fe, fd⟩ := f
    change All2 _ (a.recs er) (b.recs fr)
    cases k1 with
    | nil => exact absurd rfl k3
    | @cons p q rs rs' hpq hl =>
      cases hr : a.records
      · rw [note_shape a hr, note_shape b (by rw [← hrr, hr])]
        refine .cons ?_ hl
        obtain ⟨g1, g2, g3, g4, g5⟩ := hpq
        obtain ⟨a1, a2, a3, a4, a5, a6⟩ := tweak_core a p
        obtain ⟨b1, b2, b3, b4, b5, b6⟩ := tweak_core b q
        refine ⟨by rw [a1, b1, g1], by rw [a2, b2, g2], ?_, by rw [a3, b3, g4], ?_⟩
        · cases h with
          | level | levels | plus | err | stay => first | rfl | exact g3
          | text h => show (p.appendBreakText _).rules = (q.appendBreakText _).rules; rw [appendBreakText_rules, appendBreakText_rules, g3]
          | _ => cases hr
        · rw [a4, a5, a6, b4, b5, b6]; exact g5
      · obtain ⟨l1, hl1, k1⟩ := push_shape a hr p rs
        obtain ⟨l2, hl2, k2⟩ := push_shape b (by rw [← hrr, hr]) q rs'
        rw [hl1, hl2]
        exact .cons (same_newRec hz h hr hpq.2.2.1) (keeps_same (.cons hpq hl) k1 k2)
  · rw [run_errs, run_errs]
    have ht := h.tok
    by_cases he : ∃ t m, a = .err t m
    · obtain ⟨t, m, rfl⟩ := he
      cases h with
      | err _ hz' hm => exact .same (facing hz') (errRec_is hm) (errRec_is hm) k.errs
    · have ha : ∀ t m, a ≠ .err t m := fun t m h => he ⟨t, m, h⟩
      have hb : ∀ t m, b ≠ .err t m := by
        rintro t m rfl
        cases h with
        | err n => exact ha _ _ rfl
      have some : ∀ n ∈ [40, 42, 43, 44, 45, 46], (errorMessage n).isSome = true := by decide
      refine sameErrors_left ?_ (sameErrors_right ?_ k.errs)
      · intro x hx
        rw [List.mem_reverse, List.mem_map] at hx
        obtain ⟨n, hn, rfl⟩ := hx
        have := nums_number (hz.fst _ ht) ha hn
        exact ⟨a.tok, List.mem_map.2 ⟨_, ht, rfl⟩, n, this, errRec_is (some n this)⟩
      · intro x hx
        rw [List.mem_reverse, List.mem_map] at hx
        obtain ⟨n, hn, rfl⟩ := hx
        have := nums_number (hz.snd _ ht) hb hn
        exact ⟨b.tok, List.mem_map.2 ⟨_, ht, rfl⟩, n, this, errRec_is (some n this)⟩
  · rw [run_errs, run_errs]
    exact (act_msgs hz h).append k.msgs

end F15
