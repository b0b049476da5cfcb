import Verif.Lemmas.Causal
import Verif.Lemmas.Numbers
import Verif.Props.Ranges
import Verif.Spec.Due
/-!
# Every error message is due
-/

namespace F15
open Spec

set_option linter.unusedSectionVars false
set_option linter.unusedSimpArgs false
variable {F : Type} [PyFloat F]

/-! ### Vocabulary -/

theorem endsIn_snoc (bs : List BaseType) (b : BaseType) (p : List Token) (t : Token) :
    EndsIn (bs ++ [b]) (p ++ [t]) ↔ EndsIn bs p ∧ t.base = b := by
  unfold EndsIn
  rw [List.map_append]
  constructor
  · rintro ⟨l, hl⟩
    rw [← List.append_assoc] at hl
    have := List.append_inj' hl rfl
    exact ⟨⟨l, this.1⟩, by simpa using this.2.symm⟩
  · rintro ⟨⟨l, hl⟩, rfl⟩
    exact ⟨l, by rw [← hl]; simp⟩

theorem endsIn_one (b : BaseType) (p : List Token) (t : Token) : EndsIn [b] (p ++ [t]) ↔ t.base = b := by
  have := endsIn_snoc [] b p t
  rw [List.nil_append] at this
  rw [this]
  exact ⟨fun h => h.2, fun h => ⟨List.nil_suffix, h⟩⟩

theorem endsIn_two (a b : BaseType) (p : List Token) (t : Token) : EndsIn [a, b] (p ++ [t]) ↔ EndsIn [a] p ∧ t.base = b :=
  endsIn_snoc [a] b p t

theorem lastIn_snoc (bs : List BaseType) (p : List Token) (t : Token) : LastIn bs (p ++ [t]) ↔ t.base ∈ bs := by
  unfold LastIn; simp

theorem not_endsIn_two {a b : BaseType} {p : List Token} (h : ¬ EndsIn [b] p) : ¬ EndsIn [a, b] p := by
  rintro ⟨l, hl⟩
  exact h ⟨l ++ [a], by rw [← hl]; simp⟩

theorem lastIn_endsIn {bs : List BaseType} {b : BaseType} {p : List Token} (h : LastIn bs p) (hb : b ∉ bs) : ¬ EndsIn [b] p := by
  obtain ⟨x, hx, hb'⟩ := h
  obtain ⟨q, rfl⟩ : ∃ q, p = q ++ [x] := by
    have := List.getLast?_eq_some_iff.1 hx
    obtain ⟨q, hq⟩ := this
    exact ⟨q, hq⟩
  rw [endsIn_one]; rintro rfl; exact hb hb'

theorem endsIn_other {b c : BaseType} {p : List Token} (h : EndsIn [b] p) (hc : b ≠ c) : ¬ EndsIn [c] p := by
  rintro ⟨l, hl⟩
  obtain ⟨l', hl'⟩ := h
  rw [← hl'] at hl
  have := (List.append_inj' hl rfl).2
  simp at this
  exact hc this.symm

theorem Spec.Blamed.mono {E E' : List (Record F)} {t : Token} (h : Blamed E t) (hs : ∀ x ∈ E, x ∈ E') : Blamed E' t := by
  obtain ⟨n, x, hx, h⟩ := h
  exact ⟨n, x, hs x hx, h⟩

theorem blamed_rec {E : List (Record F)} {t : Token} {n : Nat} (hn : (errorMessage n).isSome) (h : errRec t n ∈ E) : Blamed E t :=
  ⟨n, _, h, errRec_is hn⟩

theorem Spec.NoOpenSection.mono {E E' : List (Record F)} {p : List Token} (h : NoOpenSection E p) (hs : ∀ x ∈ E, x ∈ E') :
    NoOpenSection E' p := fun a w b hp hw => (h a w b hp hw).imp (·.mono hs) id

theorem Spec.AfterFix.mono {E E' : List (Record F)} {p : List Token} (h : AfterFix E p) (hs : ∀ x ∈ E, x ∈ E') : AfterFix E' p := by
  obtain ⟨a, x, b, h1, h2, h3⟩ := h
  exact ⟨a, x, b, h1, h2, fun y hy => (h3 y hy).imp (·.mono hs) id⟩

theorem Spec.Loose.mono {E E' : List (Record F)} {p q : List Token} (h : Loose E p q) (hs : ∀ x ∈ E, x ∈ E') : Loose E' p q := by
  obtain ⟨a, w, b, h1, h2, h3, u, hu, h4⟩ := h
  exact ⟨a, w, b, h1, h2, h3, u, hu, h4.mono hs⟩

theorem Spec.Due.mono {E E' : List (Record F)} {p : List Token} {t : Token} {q : List Token} {n : Nat} (h : Due E p t q n)
    (hs : ∀ x ∈ E, x ∈ E') : Due E' p t q n := by
  unfold Due at h
  split at h
  case h_5 | h_6 | h_7 => exact ⟨h.1, h.2.1, h.2.2.mono hs⟩
  all_goals first
    | exact h
    | exact ⟨h.1, h.2.mono hs⟩
    | exact h.elim

/-! ### Sections and fixes when a token is read -/

theorem snoc_split {p : List Token} {t : Token} {a : List Token} {w : Token} {b : List Token} (h : p ++ [t] = a ++ w :: b) :
    (∃ b', b = b' ++ [t] ∧ p = a ++ w :: b') ∨ (b = [] ∧ a = p ∧ w = t) := by
  rcases List.eq_nil_or_concat b with rfl | ⟨b', x, rfl⟩
  · have := List.append_inj' (t₁ := [t]) (t₂ := [w]) h rfl
    right; simp at this; exact ⟨rfl, this.1.symm, this.2.symm⟩
  · left
    rw [List.concat_eq_append, show a ++ w :: (b' ++ [x]) = (a ++ w :: b') ++ [x] by simp] at h
    have := List.append_inj' h rfl
    simp at this
    exact ⟨b', by rw [List.concat_eq_append, this.2], this.1⟩

theorem Spec.NoOpenSection.snoc {E : List (Record F)} {p : List Token} {t : Token} (h : NoOpenSection E p)
    (ht : Blamed E t ∨ (t.base ≠ .BREAK_START ∧ t.base ≠ .SPEED_VFR) ∨ EndsIn [.C, .SLASH] p) : NoOpenSection E (p ++ [t]) := by
  intro a w b hp hw
  rcases snoc_split hp with ⟨b', rfl, rfl⟩ | ⟨rfl, rfl, rfl⟩
  · rcases h a w b' rfl hw with h | ⟨x, hx, h⟩ | h
    · exact .inl h
    · exact .inr (.inl ⟨x, by simp [hx], h⟩)
    · exact .inr (.inr h)
  · rcases ht with ht | ht | ht
    · exact .inl ht
    · rcases hw with hw | hw <;> simp [hw] at ht
    · exact .inr (.inr ht)

theorem noOpen_close {E : List (Record F)} {p : List Token} {t : Token} (ht : t.base = .BREAK_END ∨ t.base = .TOO_LONG) :
    NoOpenSection E (p ++ [t]) := by
  intro a w b hp hw
  rcases snoc_split hp with ⟨b', rfl, rfl⟩ | ⟨rfl, rfl, rfl⟩
  · exact .inr (.inl ⟨t, by simp, ht⟩)
  · rcases hw with hw | hw <;> simp [hw] at ht

/-- Tokens that are not recorded themselves. -/
def quiet : List BaseType :=
  [.SLASH, .SPEED_ALTITUDE, .SPEED_ALTITUDE_ALTITUDE, .SPEED_ALTITUDE_PLUS, .STAY, .STAY_TIME, .TRUNCATE, .C, .BREAK_END]

theorem Spec.AfterFix.snoc {E : List (Record F)} {p : List Token} {t : Token} (h : AfterFix E p) (ht : Blamed E t ∨ t.base ∈ quiet) :
    AfterFix E (p ++ [t]) := by
  obtain ⟨a, x, b, rfl, h2, h3⟩ := h
  refine ⟨a, x, b ++ [t], by simp, h2, fun y hy => ?_⟩
  rcases List.mem_append.1 hy with hy | hy
  · exact h3 y hy
  · obtain rfl := List.mem_singleton.1 hy
    exact ht

/-- What is known after reading `p`, outside of free text. -/
structure Cx (e : Ers F) (p : List Token) : Prop where
  shut : NoOpenSection e.errs p
  fix : isLlOrBd (headSub e) = true → AfterFix e.errs p
  len : e.recs.length ≤ 1 ∨ 2 ≤ p.length

theorem run_keeps (a : Act) (e : Ers F) : ∀ x ∈ e.errs, x ∈ (a.run e).errs := fun x hx => by
  rw [run_errs]; exact List.mem_append_right _ hx

theorem Cx.snoc {e : Ers F} {p : List Token} {t : Token} (h : Cx e p) (ht : t.base ∈ quiet) : Cx e (p ++ [t]) :=
  ⟨h.shut.snoc (.inr (.inl (by unfold quiet at ht; constructor <;> rintro hb <;> simp [hb] at ht))), fun hf => (h.fix hf).snoc (.inr ht),
    h.len.imp id fun h => by simp; omega⟩

theorem Cx.blame {e : Ers F} {p : List Token} {t : Token} (h : Cx e p) (ht : Blamed e.errs t) : Cx e (p ++ [t]) :=
  ⟨h.shut.snoc (.inl ht), fun hf => (h.fix hf).snoc (.inl ht), h.len.imp id fun h => by simp; omega⟩

/-- An action that records nothing. -/
theorem Cx.note {e : Ers F} {p : List Token} (he : e.recs ≠ []) (h : Cx e p) (a : Act) (hr : a.records = false) : Cx (a.run e) p := by
  refine ⟨h.shut.mono (run_keeps a e), fun hf => (h.fix ?_).mono (run_keeps a e), ?_⟩
  · rwa [headSub_note hr he] at hf
  · rw [(run_note hr he).1]; exact h.len

/-- An action that records the token just read. -/
theorem Cx.rcd {e : Ers F} {p : List Token} (he : e.recs ≠ []) (h : NoOpenSection e.errs p) (hp : p ≠ []) (a : Act) (hr : a.records = true)
    (ho : (a.tok.base ≠ .BREAK_START ∧ a.tok.base ≠ .SPEED_VFR) ∨ EndsIn [.C, .SLASH] p)
    (hf : isLlOrBd (headSub (a.run e)) = true → isFixed a.tok = true) : Cx (a.run e) (p ++ [a.tok]) := by
  refine ⟨(h.mono (run_keeps a e)).snoc (.inr ho), fun h => ⟨p, a.tok, [], rfl, hf h, by simp⟩, .inr ?_⟩
  have := List.length_pos_iff.2 hp
  simp; omega

theorem ll_base {t : Token} (ht : Typed t) (h : isLlOrBd t.sub = true) : t.base = .POINT := by
  rcases typed_pair ht with ⟨_, h2⟩ | ⟨_, h2⟩ | ⟨r, hr, h1, h2⟩
  · rw [h2] at h; exact absurd h (by decide)
  · rw [h2] at h; exact absurd h (by decide)
  · have : (table.all fun r => decide (r.base = .POINT) || !isLlOrBd r.sub) = true := by decide +kernel
    have := List.all_eq_true.1 this r hr
    rw [h2] at h
    rw [h1]
    simpa [h] using this

/-- What ends a section is a word for that. -/
theorem closes_end {t : Token} (ht : Typed t) {r : Str} (h : endsBreak t.sub r = true) : t.base = .BREAK_END := by
  have hs : [SubType.IFR, .GAT, .IFPSTART].contains t.sub = true := by
    generalize t.sub = s at h
    unfold endsBreak at h
    cases s <;> first | rfl | (exfalso; revert h; simp)
  rcases typed_pair ht with ⟨_, h2⟩ | ⟨_, h2⟩ | ⟨r, hr, h1, h2⟩
  · rw [h2] at hs; exact absurd hs (by decide)
  · rw [h2] at hs; exact absurd hs (by decide)
  · have : (table.all fun r => decide (r.base = .BREAK_END) || ![SubType.IFR, .GAT, .IFPSTART].contains r.sub) = true := by decide +kernel
    have := List.all_eq_true.1 this r hr
    rw [h2] at hs
    rw [h1]
    rw [hs] at this
    simpa using this

/-- The newest element is fixed only if its token is. -/
theorem headSub_fixed {a : Act} (hr : a.records = true) {e : Ers F} (he : e.recs ≠ []) (h : isLlOrBd (headSub (a.run e)) = true) :
    isFixed a.tok = true := by
  obtain ⟨_, p, hp⟩ := run_push hr he
  have hs : headSub (a.run e) = (a.newRec p).sub := by unfold headSub; rw [hp]; rfl
  rw [hs] at h
  rw [isFixed_eq]
  cases a with
  | point t | vToI t | ccPoint t =>
    rw [newRec_sub (t := t) (by simp)] at h; exact h
  | vToIToV t | route t | plain t | vfr t => exact h
  | brk t =>
    have : (brkRules t.sub (fresh p t) : Record F).sub = t.sub := by unfold brkRules; split <;> rfl
    rwa [show (Act.brk t).newRec p = brkRules t.sub (fresh p t) from rfl, this] at h
  | sid t =>
    exfalso
    have : ((Act.sid t).newRec p : Record F).sub = if t.text = py! "SID" then .SID_LITERAL else .SID := rfl
    rw [this] at h
    split at h <;> exact absurd h (by decide)
  | star t =>
    exfalso
    have : ((Act.star t).newRec p : Record F).sub = if t.text = py! "STAR" then .STAR_LITERAL else .STAR := rfl
    rw [this] at h
    split at h <;> exact absurd h (by decide)
  | _ => cases hr

/-- After something that starts a section, the newest element is not fixed. -/
theorem headSub_text {a : Act} (hr : a.records = true) (ht : Typed a.tok) (hb : a.tok.base ≠ .POINT) {e : Ers F} (he : e.recs ≠ []) :
    isLlOrBd (headSub (a.run e)) = false := by
  cases h : isLlOrBd (headSub (a.run e)) with
  | false => rfl
  | true =>
    have := headSub_fixed hr he h
    rw [isFixed_eq] at this
    exact absurd (ll_base ht this) hb

/-! ### Errors -/

/-- The record is about a token of the text, and the message is due, or the reader has lost track. -/
def GoodE (T : List Token) (E : List (Record F)) (x : Record F) : Prop :=
  ∃ p t q n, T = p ++ t :: q ∧ x = errRec t n ∧ (errorMessage n).isSome = true ∧ (Due E p t q n ∨ Loose E p (t :: q))

/-- All errors are good. -/
def AllGood (T : List Token) (e : Ers F) : Prop := ∀ x ∈ e.errs, GoodE T e.errs x

theorem GoodE.mono {T : List Token} {E E' : List (Record F)} {x : Record F} (h : GoodE T E x) (hs : ∀ x ∈ E, x ∈ E') : GoodE T E' x := by
  obtain ⟨p, t, q, n, h1, h2, h3, h4⟩ := h
  exact ⟨p, t, q, n, h1, h2, h3, h4.imp (·.mono hs) (·.mono hs)⟩

theorem AllGood.run {T : List Token} {e : Ers F} (h : AllGood T e) (a : Act)
    (ha : ∀ n ∈ a.nums, GoodE T (a.run e).errs (errRec a.tok n)) : AllGood T (a.run e) := by
  intro x hx
  rw [run_errs, List.mem_append, List.mem_reverse, List.mem_map] at hx
  rcases hx with ⟨n, hn, rfl⟩ | hx
  · exact ha n hn
  · exact (h x hx).mono (run_keeps a e)

/-- The token fits the action. -/
def Act.NumOk : Act → Prop
  | .err _ _ => False
  | .level t => t.base = .SPEED_ALTITUDE
  | .levels t => t.base = .SPEED_ALTITUDE_ALTITUDE ∧ t.sub ∉ ccBad
  | .plus t => t.base = .SPEED_ALTITUDE_PLUS
  | _ => True

/-- The actions other than errors only complain about numbers. -/
theorem nums_due {a : Act} (ht : Typed a.tok) (ok : a.NumOk) {n : Nat} (hn : n ∈ a.nums) (E : List (Record F)) (p q : List Token) :
    (errorMessage n).isSome = true ∧ Due E p a.tok q n := by
  have pn : ∀ t, Typed t → n ∈ posNums t → (errorMessage n).isSome = true ∧ Due E p t q n := by
    intro t ht h
    have hf := (range_iff ht n).1 h
    have := fault_num hf
    have : n = 42 ∨ n = 43 ∨ n = 44 ∨ n = 45 ∨ n = 46 := by omega
    rcases this with h | h | h | h | h <;> subst h <;> exact ⟨by decide, hf⟩
  have gn : ∀ s, n ∈ granErr s → n = 40 := by
    intro s h
    unfold granErr at h
    split at h <;> simp at h
    exact h
  cases a with
  | err t m => exact ok.elim
  | point t | vToI t | ccPoint t => exact pn t ht hn
  | level t =>
    obtain rfl := gn _ hn
    refine ⟨by decide, ?_⟩
    show LevelFault t
    unfold LevelFault
    rw [show t.base = .SPEED_ALTITUDE from ok]
    show ¬ LevelOk t.text
    rw [levelOk_iff (t := t) ht ok]
    intro h; rw [h] at hn; cases hn
  | plus t =>
    obtain rfl := gn _ hn
    refine ⟨by decide, ?_⟩
    show LevelFault t
    unfold LevelFault
    rw [show t.base = .SPEED_ALTITUDE_PLUS from ok]
    show ¬ PlusOk t.text
    rw [plusOk_iff (t := t) ht ok]
    intro h; rw [h] at hn; cases hn
  | levels t =>
    have h40 : n = 40 := by
      rcases List.mem_append.1 hn with h | h
      · exact gn _ h
      · exact gn _ h
    subst h40
    refine ⟨by decide, ?_⟩
    show LevelFault t
    unfold LevelFault
    rw [show t.base = .SPEED_ALTITUDE_ALTITUDE from ok.1]
    show ¬ ClimbOk t.text
    rw [climbOk_iff (t := t) ht ok.1 ok.2]
    intro h; rw [h] at hn; cases hn
  | _ => cases hn

/-! ### What calls may assume and what they guarantee -/

/-- A token at the front of the text that remains, after `p`. -/
structure At (T : List Token) (e : Ers F) (ts : List Token) (t : Token) (p : List Token) : Prop where
  eq : T = p ++ t :: ts
  ne : p ≠ []
  cx : Cx e p

/-- Assumptions of the calls. -/
def Ctx (T : List Token) (e : Ers F) (ts : List Token) : Call → Prop
  | .addErrorAndReSync t n => plainErr n = true ∧ (∃ p q, T = p ++ t :: q ∧ Due e.errs p t q n) ∧
      ∃ pre, T = pre ++ ts ∧ t ∈ pre ++ ts.take 1 ∧
        (ts ≠ [] → pre ≠ [] ∧ Cx ((Act.err t n).run e) pre ∧ ¬ EndsIn [.STAY, .SLASH] pre)
  | .reSync => ∃ pre, T = pre ++ ts ∧
      (ts ≠ [] → pre ≠ [] ∧ Cx e pre ∧ ¬ EndsIn [.STAY, .SLASH] pre ∧ ∃ u ∈ pre ++ ts.take 1, Blamed e.errs u)
  | .assignSpeedAltitude t => t.base = .SPEED_ALTITUDE ∧ ∃ p, T = p ++ t :: ts ∧ Cx e p
  | .assignSpeedAltitudeAltitude t => t.base = .SPEED_ALTITUDE_ALTITUDE ∧ ∃ p, At T e ts t p
  | .assignSpeedAltitudePlus t => t.base = .SPEED_ALTITUDE_PLUS ∧ ∃ p, At T e ts t p
  | .assignSpeedVfr t => t.base = .SPEED_VFR ∧ ∃ p, T = p ++ t :: ts
  | .breakEnd t => t.base = .BREAK_END ∧ ∃ p, T = p ++ t :: ts ∧ p ≠ [] ∧ Cx e (p ++ [t])
  | .breakEndError t => t.base = .BREAK_END ∧ ∃ p, At T e ts t p
  | .breakStart t => t.base = .BREAK_START ∧ ∃ p, T = p ++ t :: ts
  | .breakTextSave t => isLlOrBd (headSub e) = false ∧ ∃ p, T = p ++ t :: ts ∧ p ≠ []
  | .cruiseClimbC t => t.base = .C ∧ ∃ p, At T e ts t p
  | .cruiseClimbPoint t => ∃ p, At T e ts t p ∧ EndsIn [.C, .SLASH] p
  | .dct t => t.base = .DCT ∧ ∃ p, At T e ts t p
  | .forwardSlash t => t.base = .SLASH ∧ ∃ p, At T e ts t p
  | .postAdep t => ∃ p, At T e ts t p ∧ EndsIn [.SPEED_ALTITUDE] p
  | .postPoint t => ∃ p, At T e ts t p ∧ LastIn [.POINT, .SPEED_ALTITUDE, .SPEED_ALTITUDE_ALTITUDE, .SPEED_ALTITUDE_PLUS] p
  | .postSid => ∃ pre, T = pre ++ ts ∧ pre ≠ [] ∧ LastIn [.SID, .SID_STAR] pre ∧ Cx e pre
  | .point t => t.base = .POINT ∧ ∃ p q, T = p ++ t :: q ∧ (ts = [] ∨ (q = ts ∧ p ≠ [] ∧ Cx e p))
  | .route t => t.base = .ROUTE ∧ ∃ p, At T e ts t p
  | .sid t => t.base = .SID ∧ ∃ p, At T e ts t p
  | .sidStar t => t.base = .SID_STAR ∧ ∃ p, At T e ts t p
  | .star t => t.base = .STAR ∧ ∃ p, At T e ts t p
  | .stay t => t.base = .STAY ∧ ∃ p, At T e ts t p
  | .stayTime t => t.base = .STAY_TIME ∧ ∃ p, At T e ts t p
  | .truncate => ∃ pre, T = pre ++ ts ∧ pre ≠ [] ∧ EndsIn [.TRUNCATE] pre ∧ Cx e pre
  | .vToI => ∃ pre p sl sp rest, T = pre ++ ts ∧ pre ≠ [] ∧ Cx e pre ∧ ts = p :: sl :: sp :: rest ∧ p.base = .POINT ∧
      sl.base = .SLASH ∧ sp.base = .SPEED_ALTITUDE
  | .vToIToV => ∃ pre p sl sp rest, T = pre ++ ts ∧ pre ≠ [] ∧ Cx e pre ∧ ts = p :: sl :: sp :: rest ∧ p.base = .POINT ∧
      sl.base = .SLASH ∧ sp.base = .SPEED_VFR

/-- `break_end` may return without having read anything. -/
def Back (e : Ers F) (ts : List Token) : Call → Ers F → List Token → Prop
  | .breakEnd t, e1, ts1 => e1 = e ∧ ts1 = ts ∧ readOn t ts
  | _, _, _ => False

/-- Guarantees. -/
def Sound (T : List Token) (X : Ers F → List Token → Prop) (e : Ers F) (r : Res F) : Prop :=
  ∀ e1 ts1, r = done e1 ts1 → AllGood T e1 ∧ e1.recs ≠ [] ∧ (∀ x ∈ e.errs, x ∈ e1.errs) ∧
    ∃ pre1, T = pre1 ++ ts1 ∧ (ts1 ≠ [] → Loose e1.errs pre1 ts1 ∨ X e1 ts1)

/-- Nothing is left unless the reader has lost track. -/
abbrev Sure (T : List Token) (e : Ers F) (r : Res F) : Prop := Sound T (fun _ _ => False) e r

theorem Sound.weaken {T : List Token} {X Y : Ers F → List Token → Prop} {e : Ers F} {r : Res F} (h : Sound T X e r)
    (hx : ∀ e1 ts1, X e1 ts1 → Y e1 ts1) : Sound T Y e r := by
  intro e1 ts1 h1
  obtain ⟨a, b, c, pre, d, f⟩ := h e1 ts1 h1
  exact ⟨a, b, c, pre, d, fun h => (f h).imp id (hx _ _)⟩

theorem Sound.act {T : List Token} {X : Ers F → List Token → Prop} {e : Ers F} {r : Res F} (a : Act) (h : Sound T X (a.run e) r) :
    Sound T X e r := by
  intro e1 ts1 h1
  obtain ⟨g, b, c, d⟩ := h e1 ts1 h1
  exact ⟨g, b, fun x hx => c x (run_keeps a e x hx), d⟩

theorem Sound.ret {T : List Token} {X : Ers F → List Token → Prop} {e : Ers F} (hg : AllGood T e) (hn : e.recs ≠ []) :
    Sound T X e (done e []) := by
  intro e1 ts1 h; cases h
  exact ⟨hg, hn, fun _ h => h, T, by simp, fun h => absurd rfl h⟩

/-- The induction hypothesis. -/
def DIH (T : List Token) (call : Call → ML F Unit) : Prop :=
  ∀ c e ts, AllGood T e → e.recs ≠ [] → Ctx T e ts c → Sound T (Back e ts c) e (call c ⟨e, ts⟩)

/-- Actions at a token of the text are good. -/
theorem AllGood.num {T : List Token} (hT : ∀ t ∈ T, Typed t) {e : Ers F} (h : AllGood T e) (a : Act) (ok : a.NumOk)
    {p q : List Token} (hp : T = p ++ a.tok :: q) : AllGood T (a.run e) :=
  h.run a fun n hn => by
    obtain ⟨h1, h2⟩ := nums_due (hT a.tok (by rw [hp]; simp)) ok hn (a.run e).errs p q
    exact ⟨p, a.tok, q, n, hp, rfl, h1, .inl h2⟩

/-! ### After the reader has lost track -/

/-- Errors come from the tokens. -/
theorem Star.from {T : List Token} (hT : ∀ t ∈ T, Typed t) {a b : Cfg F} (h : Star T a b) :
    (∀ x ∈ a.ers.errs, x ∈ b.ers.errs) ∧
    ∀ x ∈ b.ers.errs, x ∈ a.ers.errs ∨ ∃ t ∈ T, ∃ n, (errorMessage n).isSome = true ∧ x = errRec t n := by
  induction h with
  | refl => exact ⟨fun _ h => h, fun x hx => .inl hx⟩
  | @head a b c ev _ ih =>
    have act : ∀ (d : Act) (e : Ers F) (ts : List Token), d.tok ∈ T → d.Ok T e ts → (∀ x ∈ e.errs, x ∈ (d.run e).errs) ∧
        ∀ x ∈ (d.run e).errs, x ∈ e.errs ∨ ∃ t ∈ T, ∃ n, (errorMessage n).isSome = true ∧ x = errRec t n := by
      intro d e ts hd ok
      refine ⟨run_keeps d e, fun x hx => ?_⟩
      rw [run_errs, List.mem_append, List.mem_reverse, List.mem_map] at hx
      rcases hx with ⟨n, hn, rfl⟩ | hx
      · exact .inr ⟨d.tok, hd, n, (errs_40_46 hT hd ok.why hn).1, rfl⟩
      · exact .inl hx
    have hev : (∀ x ∈ a.ers.errs, x ∈ b.ers.errs) ∧
        ∀ x ∈ b.ers.errs, x ∈ a.ers.errs ∨ ∃ t ∈ T, ∃ n, (errorMessage n).isSome = true ∧ x = errRec t n := by
      cases ev with
      | pop | drop => exact ⟨fun _ h => h, fun x hx => .inl hx⟩
      | note d e ts h hr ht ok => exact act d e ts ht ok
      | rcd d e ts h1 h2 hr ht ok => exact act d e ts ht ok
    refine ⟨fun x hx => ih.1 x (hev.1 x hx), fun x hx => ?_⟩
    rcases ih.2 x hx with h | h
    · exact hev.2 x h
    · exact .inr h

/-- Whatever is done after the reader has lost track is excused. -/
theorem lost_call {T : List Token} (hT : ∀ t ∈ T, Typed t) {n : Nat} {e : Ers F} (hg : AllGood T e) (hn : e.recs ≠ []) {c : Call}
    {pre : List Token} {t : Token} {ts : List Token} (hp : T = pre ++ t :: ts) (hl : Loose e.errs pre (t :: ts))
    (hc : ∀ B, t ∈ B → t :: ts <:+ B → Pre B ts c) : Sure T e (exec n c ⟨e, ts⟩) := by
  obtain ⟨a, w, b, rfl, hw, hr, u, hu, hbl⟩ := hl
  have hTB : T = a ++ w :: (b ++ t :: ts) := by rw [hp]; simp
  have hB : ∀ x ∈ b ++ t :: ts, Typed x := fun x hx => hT x (by rw [hTB]; exact List.mem_append_right _ (List.mem_cons_of_mem _ hx))
  have hi : Inv (b ++ t :: ts) e ts := ⟨hn, ⟨b ++ [t], by simp⟩⟩
  have g := trace_exec (F := F) hB n c e ts [] hi (.inl rfl) (hc _ (by simp) ⟨b, rfl⟩)
  intro e1 ts1 h
  rw [h] at g
  have g : Star _ _ _ := g
  obtain ⟨k1, k2⟩ := g.from hB
  have hi1 := g.invs hi
  have loose : ∀ b1 q, b ++ t :: ts = b1 ++ q → Loose e1.errs (a ++ w :: b1) q := fun b1 q hq =>
    ⟨a, w, b1, rfl, hw, by rw [← hq]; exact hr, u, hu, hbl.mono k1⟩
  refine ⟨fun x hx => ?_, hi1.ne, k1, ?_⟩
  · rcases k2 x hx with h | ⟨y, hy, m, hm, rfl⟩
    · exact (hg x h).mono k1
    · obtain ⟨c1, d, hcd⟩ := List.append_of_mem hy
      exact ⟨a ++ w :: c1, y, d, m, by rw [hTB, hcd]; simp, rfl, hm, .inr (loose c1 (y :: d) hcd)⟩
  · obtain ⟨b1, hb1⟩ := hi1.suf
    exact ⟨a ++ w :: b1, by rw [hTB]; dsimp only at hb1; rw [← hb1]; simp, fun _ => .inl (loose b1 ts1 hb1.symm)⟩

end F15
