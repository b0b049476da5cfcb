import Verif.Lemmas.Causal
/-!
# Two runs, method by method
-/

namespace F15
open Spec

set_option linter.unusedSectionVars false
variable {F : Type} [PyFloat F]

theorem three {p : List Token} (h : 3 ≤ p.length) : ∃ a b c q, p = a :: b :: c :: q := by
  match p, h with
  | a :: b :: c :: q, _ => exact ⟨a, b, c, q, rfl⟩

section
variable {pre x y : List Token} (hx : ∀ t ∈ pre ++ x, Typed t) (hy : ∀ t ∈ pre ++ y, Typed t)
variable {n : Nat} (ih : DuoIH (F := F) pre x y (exec n))
variable {e : Ers F} {p : List Token} (he : e.recs ≠ []) (hp : p <:+ pre)

theorem arg_head {t : Token} (h : (t :: p) <:+ pre) : Arg pre p e t := ⟨h.subset (by simp), .inl h⟩

theorem arg_one {t : Token} (h : Arg pre p e t) : ∀ u ∈ [t], Arg pre p e u := by
  intro u hu; rw [List.mem_singleton] at hu; subst hu; exact h

theorem suf_tail {t : Token} (h : (t :: p) <:+ pre) : p <:+ pre := (List.suffix_cons t p).trans h

set_option hygiene false in
local macro "fin" : tactic => `(tactic| (first
  | exact ih _ _ _ he hp (arg_one ha) (by simp [PreD, Pre, argOf, *]; try decide)
  | exact ih _ _ _ he hp (by simp [argOf]) (by simp [PreD, Pre, argOf, *]; try decide)
  | exact Duo.same _ _ he hp))

include hx hy ih he hp

theorem duo_err {t : Token} {m : Nat} (hm : plainErr m = true) :
    Duo pre x y (step (exec n) (.addErrorAndReSync t m) ⟨e, p ++ x⟩) (step (exec n) (.addErrorAndReSync t m) ⟨e, p ++ y⟩) := by
  rw [step_err _ t m (plainErr.isSome hm) e _ he, step_err _ t m (plainErr.isSome hm) e _ he]
  exact ih _ _ _ (Act.run_ne _ _ he) hp (by simp [argOf]) trivial

theorem duo_postAdep {t : Token} (ha : Arg pre p e t) :
    Duo pre x y (step (exec n) (.postAdep t) ⟨e, p ++ x⟩) (step (exec n) (.postAdep t) ⟨e, p ++ y⟩) := by
  show Duo pre x y (postAdep (exec n) t ⟨e, p ++ x⟩) (postAdep (exec n) t ⟨e, p ++ y⟩)
  unfold postAdep
  cases hb : t.base
  all_goals fin

theorem duo_postPoint {t : Token} (ha : Arg pre p e t) :
    Duo pre x y (step (exec n) (.postPoint t) ⟨e, p ++ x⟩) (step (exec n) (.postPoint t) ⟨e, p ++ y⟩) := by
  rw [step_postPoint _ t e _ he, step_postPoint _ t e _ he]
  cases hb : t.base
  case ROUTE =>
    dsimp only
    split
    · fin
    · fin
  all_goals fin

theorem duo_breakEndError {t : Token} (ha : Arg pre p e t) :
    Duo pre x y (step (exec n) (.breakEndError t) ⟨e, p ++ x⟩) (step (exec n) (.breakEndError t) ⟨e, p ++ y⟩) := by
  show Duo pre x y (breakEndError (exec n) t ⟨e, p ++ x⟩) (breakEndError (exec n) t ⟨e, p ++ y⟩)
  unfold breakEndError
  split
  · fin
  · split
    · fin
    · split
      · fin
      · exact Duo.same _ _ he hp

theorem duo_textTail : Duo pre x y (textTail (exec n) e (p ++ x)) (textTail (exec n) e (p ++ y)) := by
  cases p with
  | nil =>
    exact .apart e _ _ (only_textTail hx n he (Ext2.refl he) (late_toks hp (by simp)))
      (only_textTail hy n he (Ext2.refl he) (late_toks hp (by simp)))
  | cons nt p =>
    have ha := arg_head (e := e) hp
    replace hp := suf_tail hp
    show Duo pre x y (exec n (.breakTextSave nt) ⟨e, p ++ x⟩) (exec n (.breakTextSave nt) ⟨e, p ++ y⟩)
    fin

theorem duo_endTail : Duo pre x y (endTail (exec n) e (p ++ x)) (endTail (exec n) e (p ++ y)) := by
  cases p with
  | nil =>
    exact .apart e _ _ (only_endTail hx n he (Ext2.refl he) (late_toks hp (by simp)))
      (only_endTail hy n he (Ext2.refl he) (late_toks hp (by simp)))
  | cons nt p =>
    have ha := arg_head (e := e) hp
    replace hp := suf_tail hp
    show Duo pre x y (exec n (.point nt) ⟨e, p ++ x⟩) (exec n (.point nt) ⟨e, p ++ y⟩)
    fin

theorem duo_climbTail (t : Token) : Duo pre x y (climbTail (exec n) t e (p ++ x)) (climbTail (exec n) t e (p ++ y)) := by
  cases p with
  | nil =>
    exact .apart e _ _ (only_climbTail hx n t he (Ext2.refl he) (late_toks hp (by simp)))
      (only_climbTail hy n t he (Ext2.refl he) (late_toks hp (by simp)))
  | cons nt p =>
    have ha := arg_head (e := e) hp
    replace hp := suf_tail hp
    show Duo pre x y (andThen _ _) (andThen _ _)
    refine Duo.andThen hx hy ?_ (fun e' p' h1 h2 _ => duo_endTail hx hy ih h1 h2)
      (fun e0 e' ts _ h1 h2 h3 => only_endTail hx n h2 h1 h3) (fun e0 e' ts _ h1 h2 h3 => only_endTail hy n h2 h1 h3)
    split
    · fin
    · split
      · fin
      · fin

theorem duo_textBody {t : Token} (ha : Arg pre p e t ∨ Typed t ∧ t.base = .TOO_LONG) :
    Duo pre x y (textBody (exec n) t e (p ++ x) he) (textBody (exec n) t e (p ++ y) he) := by
  unfold textBody
  have he' := Act.run_ne (.text t) e he
  split
  · rename_i hend
    rcases ha with ha | ⟨ht, hb⟩
    · refine Duo.andThen hx hy ?_ (fun e' p' h1 h2 _ => duo_textTail hx hy ih h1 h2)
        (fun e0 e' ts _ h1 h2 h3 => only_textTail hx n h2 h1 h3) (fun e0 e' ts _ h1 h2 h3 => only_textTail hy n h2 h1 h3)
      refine ih _ _ _ he' hp (arg_one ⟨ha.1, ?_⟩) (by simp [PreD, Pre, argOf])
      rcases ha.2 with h | h | h
      · exact .inl h
      · exact .inr (.inl h)
      · exact .inr (.inr (by rw [run_errs]; exact List.mem_append_right _ h))
    · rw [too_long_sub ht hb] at hend; simp [endsBreak] at hend
  · exact duo_textTail hx hy ih he' hp

theorem duo_text {t : Token} (ha : Arg pre p e t) :
    Duo pre x y (step (exec n) (.breakTextSave t) ⟨e, p ++ x⟩) (step (exec n) (.breakTextSave t) ⟨e, p ++ y⟩) := by
  have ht : Typed t := hx t (List.mem_append_left _ ha.1)
  by_cases hb : t.base = .TOO_LONG
  · rw [step_text_long _ t e _ hb, step_text_long _ t e _ hb]
    refine Duo.andThen hx hy (by fin) ?_ ?_ ?_
    · intro e' p' h1 h2 _
      rw [dif_pos h1, dif_pos h1]
      exact duo_textBody hx hy ih h1 h2 (.inr ⟨ht, hb⟩)
    · intro e0 e' ts _ h1 h2 h3
      rw [dif_pos h2]
      exact only_textBody hx n ht hb h2 h1 h3
    · intro e0 e' ts _ h1 h2 h3
      rw [dif_pos h2]
      exact only_textBody hy n ht hb h2 h1 h3
  · rw [step_text _ t e _ he hb, step_text _ t e _ he hb]
    exact duo_textBody hx hy ih he hp (.inl ha)

end

section
variable {pre x y : List Token} (hx : ∀ t ∈ pre ++ x, Typed t) (hy : ∀ t ∈ pre ++ y, Typed t)
variable {n : Nat} (ih : DuoIH (F := F) pre x y (exec n))
variable {e : Ers F} {p : List Token} (he : e.recs ≠ []) {nt : Token} (hp : (nt :: p) <:+ pre)
include hx hy ih he hp

set_option hygiene false in
local macro "fin" : tactic => `(tactic| (first
  | exact ih _ _ _ he hp (arg_one ha) (by simp [PreD, Pre, argOf, *]; try decide)
  | exact ih _ _ _ he hp (by simp [argOf]) (by simp [PreD, Pre, argOf, *]; try decide)
  | exact Duo.same _ _ he hp))

theorem duo_truncate : Duo pre x y (step (exec n) .truncate ⟨e, nt :: p ++ x⟩) (step (exec n) .truncate ⟨e, nt :: p ++ y⟩) := by
  rw [step_truncate, step_truncate]
  have ha := arg_head (e := e) hp
  replace hp := suf_tail hp
  dsimp only [List.cons_append]
  fin

theorem duo_postSid : Duo pre x y (step (exec n) .postSid ⟨e, nt :: p ++ x⟩) (step (exec n) .postSid ⟨e, nt :: p ++ y⟩) := by
  rw [step_postSid, step_postSid]
  have ha := arg_head (e := e) hp
  replace hp := suf_tail hp
  dsimp only [List.cons_append]
  cases hb : nt.base
  all_goals fin

theorem duo_slash {t : Token} :
    Duo pre x y (step (exec n) (.forwardSlash t) ⟨e, nt :: p ++ x⟩) (step (exec n) (.forwardSlash t) ⟨e, nt :: p ++ y⟩) := by
  rw [step_slash, step_slash]
  have ha := arg_head (e := e) hp
  replace hp := suf_tail hp
  dsimp only [List.cons_append]
  cases hb : nt.base
  all_goals fin

theorem duo_point {t : Token} (ht : Typed t) :
    Duo pre x y (step (exec n) (.point t) ⟨e, nt :: p ++ x⟩) (step (exec n) (.point t) ⟨e, nt :: p ++ y⟩) := by
  rw [step_point _ t ht e _ he, step_point _ t ht e _ he]
  replace he := Act.run_ne (.point t) e he
  have ha := arg_head (e := (Act.point t).run e) hp
  replace hp := suf_tail hp
  dsimp only [List.cons_append]
  fin

theorem duo_route {t : Token} :
    Duo pre x y (step (exec n) (.route t) ⟨e, nt :: p ++ x⟩) (step (exec n) (.route t) ⟨e, nt :: p ++ y⟩) := by
  rw [step_route _ t e _ he, step_route _ t e _ he]
  replace he := Act.run_ne (.route t) e he
  have ha := arg_head (e := (Act.route t).run e) hp
  replace hp := suf_tail hp
  dsimp only [List.cons_append]
  cases hb : nt.base
  case POINT =>
    dsimp only
    split
    · have hm : ∀ z, nt ∈ pre ++ z := fun z => List.mem_append_left _ ha.1
      have hsz : ∀ z, p ++ z <:+ pre ++ z := fun z => by
        obtain ⟨q, hq⟩ := hp
        exact ⟨q, by rw [← hq, List.append_assoc]⟩
      refine Duo.andThen hx hy (by fin) ?_ ?_ ?_
      · intro e' p' h1 h2 h3
        have h48 := err_kept hx (by decide) (hm x) he (hsz x) h3
        exact ih _ _ _ h1 h2 (arg_one ⟨ha.1, .inr (.inr h48)⟩) (by simp [PreD, Pre, argOf])
      · intro e0 e' ts h1 h2 h3 h4
        have h48 := err_kept hx (by decide) (hm x) he (hsz x) h1
        refine only_call hx n _ h3 h2 h4 ?_ (by simp [PreD, Pre, argOf])
        intro u hu
        simp only [argOf, List.mem_singleton] at hu
        subst hu
        exact ⟨hm x, .inr h48⟩
      · intro e0 e' ts h1 h2 h3 h4
        have h48 := err_kept hy (by decide) (hm y) he (hsz y) h1
        refine only_call hy n _ h3 h2 h4 ?_ (by simp [PreD, Pre, argOf])
        intro u hu
        simp only [argOf, List.mem_singleton] at hu
        subst hu
        exact ⟨hm y, .inr h48⟩
    · fin
  all_goals fin

theorem duo_dct {t : Token} :
    Duo pre x y (step (exec n) (.dct t) ⟨e, nt :: p ++ x⟩) (step (exec n) (.dct t) ⟨e, nt :: p ++ y⟩) := by
  rw [step_dct _ t e _ he, step_dct _ t e _ he]
  replace he := Act.run_ne (.plain t) e he
  have ha := arg_head (e := (Act.plain t).run e) hp
  replace hp := suf_tail hp
  dsimp only [List.cons_append]
  cases hb : nt.base
  all_goals fin

theorem duo_peek34 {a : Act} : Duo pre x y (exec n (.addErrorAndReSync nt 34) ⟨a.run e, nt :: (p ++ x)⟩)
    (exec n (.addErrorAndReSync nt 34) ⟨a.run e, nt :: (p ++ y)⟩) :=
  ih (.addErrorAndReSync nt 34) (a.run e) (nt :: p) (Act.run_ne _ _ he) hp (arg_one ⟨hp.subset (by simp), .inr (.inl (by simp))⟩)
    ⟨by simp [argOf], by decide⟩

theorem duo_sid {t : Token} (ha : Arg pre (nt :: p) e t) :
    Duo pre x y (step (exec n) (.sid t) ⟨e, nt :: p ++ x⟩) (step (exec n) (.sid t) ⟨e, nt :: p ++ y⟩) := by
  rw [step_sid _ t e _ he, step_sid _ t e _ he]
  split
  · replace he := Act.run_ne (.sid t) e he
    exact ih _ _ _ he hp (by simp [argOf]) trivial
  · replace he := Act.run_ne (.plain t) e he
    refine ih _ _ _ he hp (arg_one ⟨ha.1, ?_⟩) ⟨by simp [argOf], by decide⟩
    rcases ha.2 with h | h | h
    · exact .inl h
    · exact .inr (.inl h)
    · exact .inr (.inr (by rw [run_errs]; exact List.mem_append_right _ h))

theorem duo_sidStar {t : Token} :
    Duo pre x y (step (exec n) (.sidStar t) ⟨e, nt :: p ++ x⟩) (step (exec n) (.sidStar t) ⟨e, nt :: p ++ y⟩) := by
  rw [step_sidStar _ t e _ he, step_sidStar _ t e _ he]
  split
  · replace he := Act.run_ne (.sid t) e he
    exact ih _ _ _ he hp (by simp [argOf]) trivial
  · exact duo_peek34 hx hy ih he hp

theorem duo_star {t : Token} :
    Duo pre x y (step (exec n) (.star t) ⟨e, nt :: p ++ x⟩) (step (exec n) (.star t) ⟨e, nt :: p ++ y⟩) := by
  rw [step_star _ t e _ he, step_star _ t e _ he]
  exact duo_peek34 hx hy ih he hp

theorem duo_stayTime {t : Token} (ht : Typed t) (hb : t.base = .STAY_TIME) :
    Duo pre x y (step (exec n) (.stayTime t) ⟨e, nt :: p ++ x⟩) (step (exec n) (.stayTime t) ⟨e, nt :: p ++ y⟩) := by
  rw [step_stayTime _ t (stay_facts ht hb) e _ he, step_stayTime _ t (stay_facts ht hb) e _ he]
  replace he := Act.run_ne (.stay t) e he
  have ha := arg_head (e := (Act.stay t).run e) hp
  replace hp := suf_tail hp
  dsimp only [List.cons_append]
  cases hb : nt.base
  all_goals fin

theorem duo_breakStart {t : Token} :
    Duo pre x y (step (exec n) (.breakStart t) ⟨e, nt :: p ++ x⟩) (step (exec n) (.breakStart t) ⟨e, nt :: p ++ y⟩) := by
  rw [step_breakStart _ t e _ he, step_breakStart _ t e _ he]
  replace he := Act.run_ne (.brk t) e he
  have ha := arg_head (e := (Act.brk t).run e) hp
  replace hp := suf_tail hp
  dsimp only [List.cons_append]
  split <;> fin

theorem duo_level {t : Token} (ht : Typed t) (hb : t.base = .SPEED_ALTITUDE) :
    Duo pre x y (step (exec n) (.assignSpeedAltitude t) ⟨e, nt :: p ++ x⟩) (step (exec n) (.assignSpeedAltitude t) ⟨e, nt :: p ++ y⟩) := by
  rw [step_level _ t ht hb e _ he, step_level _ t ht hb e _ he]
  have he0 := he
  replace he := Act.run_ne (.level t) e he
  have ha := arg_head (e := (Act.level t).run e) hp
  replace hp := suf_tail hp
  dsimp only [List.cons_append]
  split <;> fin

theorem duo_levelsK (a : Act) : Duo pre x y (levelsK (exec n) a e (nt :: p ++ x)) (levelsK (exec n) a e (nt :: p ++ y)) := by
  replace he := Act.run_ne a e he
  have ha := arg_head (e := a.run e) hp
  replace hp := suf_tail hp
  show Duo pre x y (exec n (.postPoint nt) _) (exec n (.postPoint nt) _)
  fin

theorem duo_levels {t : Token} (ht : Typed t) (hb : t.base = .SPEED_ALTITUDE_ALTITUDE) :
    Duo pre x y (step (exec n) (.assignSpeedAltitudeAltitude t) ⟨e, nt :: p ++ x⟩)
      (step (exec n) (.assignSpeedAltitudeAltitude t) ⟨e, nt :: p ++ y⟩) := by
  by_cases hbad : t.sub ∈ ccBad
  · rw [step_levels_bad _ t ht hbad e _ he]
    exact .left _ _
  · rw [step_levels _ t ht hb hbad e _ he, step_levels _ t ht hb hbad e _ he]
    exact duo_levelsK hx hy ih he hp _

theorem duo_plus {t : Token} (ht : Typed t) (hb : t.base = .SPEED_ALTITUDE_PLUS) :
    Duo pre x y (step (exec n) (.assignSpeedAltitudePlus t) ⟨e, nt :: p ++ x⟩)
      (step (exec n) (.assignSpeedAltitudePlus t) ⟨e, nt :: p ++ y⟩) := by
  rw [step_plus _ t ht hb e _ he, step_plus _ t ht hb e _ he]
  exact duo_levelsK hx hy ih he hp _

theorem duo_vfr {t : Token} (ht : Typed t) (hb : t.base = .SPEED_VFR) :
    Duo pre x y (step (exec n) (.assignSpeedVfr t) ⟨e, nt :: p ++ x⟩) (step (exec n) (.assignSpeedVfr t) ⟨e, nt :: p ++ y⟩) := by
  rw [step_vfr _ t ht hb e _ he, step_vfr _ t ht hb e _ he]
  replace he := Act.run_ne (.vfr t) e he
  have ha := arg_head (e := (Act.vfr t).run e) hp
  replace hp := suf_tail hp
  dsimp only [List.cons_append]
  fin

theorem duo_ccPoint {t : Token} (ht : Typed t) :
    Duo pre x y (step (exec n) (.cruiseClimbPoint t) ⟨e, nt :: p ++ x⟩) (step (exec n) (.cruiseClimbPoint t) ⟨e, nt :: p ++ y⟩) := by
  rw [step_ccPoint _ t ht e _ he, step_ccPoint _ t ht e _ he]
  replace he := Act.run_ne (.ccPoint t) e he
  have ha := arg_head (e := (Act.ccPoint t).run e) hp
  replace hp := suf_tail hp
  dsimp only [List.cons_append]
  split
  · refine Duo.andThen hx hy (by fin) (fun e' p' h1 h2 _ => duo_climbTail hx hy ih h1 h2 t)
      (fun e0 e' ts _ h1 h2 h3 => only_climbTail hx n t h2 h1 h3) (fun e0 e' ts _ h1 h2 h3 => only_climbTail hy n t h2 h1 h3)
  · exact duo_climbTail hx hy ih he hp t

end

section
variable {pre x y : List Token} (hx : ∀ t ∈ pre ++ x, Typed t) (hy : ∀ t ∈ pre ++ y, Typed t)
variable {n : Nat} (ih : DuoIH (F := F) pre x y (exec n))
variable {e : Ers F} {p : List Token} (he : e.recs ≠ []) {nt nt2 : Token} (hp : (nt :: nt2 :: p) <:+ pre)
include hx hy ih he hp

set_option hygiene false in
local macro "fin" : tactic => `(tactic| (first
  | exact ih _ _ _ he hp (arg_one ha) (by simp [PreD, Pre, argOf, *]; try decide)
  | exact ih _ _ _ he hp (by simp [argOf]) (by simp [PreD, Pre, argOf, *]; try decide)
  | exact Duo.same _ _ he hp))

theorem duo_reSync : Duo pre x y (step (exec n) .reSync ⟨e, nt :: nt2 :: p ++ x⟩) (step (exec n) .reSync ⟨e, nt :: nt2 :: p ++ y⟩) := by
  rw [step_reSync, step_reSync]
  have ha := arg_head (e := e) hp
  replace hp := suf_tail hp
  dsimp only [List.cons_append]
  rw [← List.cons_append, ← List.cons_append]
  cases hb : nt.base
  case SLASH =>
    dsimp only [List.cons_append]
    replace ha := arg_head (e := e) hp
    replace hp := suf_tail hp
    cases hb : nt2.base
    all_goals fin
  all_goals fin

theorem duo_stay {t : Token} :
    Duo pre x y (step (exec n) (.stay t) ⟨e, nt :: nt2 :: p ++ x⟩) (step (exec n) (.stay t) ⟨e, nt :: nt2 :: p ++ y⟩) := by
  rw [step_stay, step_stay]
  have ha := arg_head (e := e) hp
  replace hp := suf_tail hp
  dsimp only [List.cons_append]
  split
  · rw [← List.cons_append, ← List.cons_append]; fin
  · replace ha := arg_head (e := e) hp
    replace hp := suf_tail hp
    split
    · fin
    · rename_i hb
      have hb := Decidable.not_not.1 hb
      fin

theorem duo_C {t : Token} :
    Duo pre x y (step (exec n) (.cruiseClimbC t) ⟨e, nt :: nt2 :: p ++ x⟩) (step (exec n) (.cruiseClimbC t) ⟨e, nt :: nt2 :: p ++ y⟩) := by
  rw [step_C _ t e _ he, step_C _ t e _ he]
  have he' := Act.run_ne (.plain t) e he
  have ha := arg_head (e := e) hp
  have ha' := arg_head (e := (Act.plain t).run e) hp
  replace hp := suf_tail hp
  dsimp only [List.cons_append]
  rw [← List.cons_append, ← List.cons_append]
  cases hb : nt.base
  case SLASH =>
    dsimp only [List.cons_append]
    replace ha := arg_head (e := e) hp
    replace hp := suf_tail hp
    fin
  case UNKNOWN | SPEED_VFR | SPEED_ALTITUDE | BREAK_END | SPEED_ALTITUDE_ALTITUDE | SPEED_ALTITUDE_PLUS | TOO_LONG |
        STAY_TIME => fin
  all_goals
    replace he := he'
    replace ha := ha'
    fin

end

section
variable {pre x y : List Token} (hx : ∀ t ∈ pre ++ x, Typed t) (hy : ∀ t ∈ pre ++ y, Typed t)
variable {n : Nat} (ih : DuoIH (F := F) pre x y (exec n))
variable {e : Ers F} {p : List Token} (he : e.recs ≠ []) {nt nt2 nt3 : Token} (hp : (nt :: nt2 :: nt3 :: p) <:+ pre)
include hx hy ih he hp

set_option hygiene false in
local macro "fin" : tactic => `(tactic| (first
  | exact ih _ _ _ he hp (arg_one ha) (by simp [PreD, Pre, argOf, *]; try decide)
  | exact ih _ _ _ he hp (by simp [argOf]) (by simp [PreD, Pre, argOf, *]; try decide)
  | exact Duo.same _ _ he hp))

theorem duo_breakEnd {t : Token} :
    Duo pre x y (step (exec n) (.breakEnd t) ⟨e, nt :: nt2 :: nt3 :: p ++ x⟩)
      (step (exec n) (.breakEnd t) ⟨e, nt :: nt2 :: nt3 :: p ++ y⟩) := by
  rw [step_breakEnd, step_breakEnd]
  have h22 : Duo pre x y (exec n (.addErrorAndReSync nt 22) ⟨e, nt :: nt2 :: nt3 :: p ++ x⟩)
      (exec n (.addErrorAndReSync nt 22) ⟨e, nt :: nt2 :: nt3 :: p ++ y⟩) :=
    ih _ _ _ he hp (arg_one ⟨hp.subset (by simp), .inr (.inl (by simp))⟩) ⟨by simp [argOf], by decide⟩
  have hsame := Duo.same (x := x) (y := y) e (nt :: nt2 :: nt3 :: p) he hp
  dsimp only [List.cons_append]
  dsimp only [List.cons_append] at h22 hsame
  split
  · exact hsame
  rename_i hb
  split
  · split
    · exact hsame
    rename_i hsl
    split
    · rename_i hsp
      refine Duo.andThen hx hy ?_ (fun e' p' h1 h2 _ => duo_endTail hx hy ih h1 h2)
        (fun e0 e' ts _ h1 h2 h3 => only_endTail hx n h2 h1 h3) (fun e0 e' ts _ h1 h2 h3 => only_endTail hy n h2 h1 h3)
      exact ih .vToI e (nt :: nt2 :: nt3 :: p) he hp (by simp [argOf])
        ⟨nt, nt2, nt3, p, rfl, Decidable.not_not.1 hb, Decidable.not_not.1 hsl, hsp⟩
    · split
      · rename_i hsp
        refine Duo.andThen hx hy ?_ (fun e' p' h1 h2 _ => duo_endTail hx hy ih h1 h2)
          (fun e0 e' ts _ h1 h2 h3 => only_endTail hx n h2 h1 h3) (fun e0 e' ts _ h1 h2 h3 => only_endTail hy n h2 h1 h3)
        exact ih .vToIToV e (nt :: nt2 :: nt3 :: p) he hp (by simp [argOf])
          ⟨nt, nt2, nt3, p, rfl, Decidable.not_not.1 hb, Decidable.not_not.1 hsl, hsp⟩
      · exact h22
  · exact ih _ _ (nt2 :: nt3 :: p) he (suf_tail hp) (arg_one (arg_head hp)) (by simp [PreD, Pre, argOf, *])

theorem duo_vToI (hsp : nt3.base = .SPEED_ALTITUDE) :
    Duo pre x y (step (exec n) .vToI ⟨e, nt :: nt2 :: nt3 :: p ++ x⟩) (step (exec n) .vToI ⟨e, nt :: nt2 :: nt3 :: p ++ y⟩) := by
  have ht : Typed nt := hx nt (List.mem_append_left _ (hp.subset (by simp)))
  dsimp only [List.cons_append]
  rw [step_vToI _ nt nt2 nt3 ht e _ he, step_vToI _ nt nt2 nt3 ht e _ he]
  exact ih _ _ _ (Act.run_ne _ _ he) (suf_tail (suf_tail (suf_tail hp))) (arg_one (arg_head (suf_tail (suf_tail hp))))
    ⟨by simp [argOf], hsp⟩

theorem duo_vToIToV (hsp : nt3.base = .SPEED_VFR) :
    Duo pre x y (step (exec n) .vToIToV ⟨e, nt :: nt2 :: nt3 :: p ++ x⟩) (step (exec n) .vToIToV ⟨e, nt :: nt2 :: nt3 :: p ++ y⟩) := by
  dsimp only [List.cons_append]
  rw [step_vToIToV _ nt nt2 nt3 e _ he, step_vToIToV _ nt nt2 nt3 e _ he]
  exact ih _ _ _ (Act.run_ne _ _ he) (suf_tail (suf_tail (suf_tail hp))) (arg_one (arg_head (suf_tail (suf_tail hp))))
    ⟨by simp [argOf], hsp⟩

end

/-- The two-run theorem. -/
theorem duo_exec {pre x y : List Token} (hx : ∀ t ∈ pre ++ x, Typed t) (hy : ∀ t ∈ pre ++ y, Typed t) (n : Nat) :
    DuoIH (F := F) pre x y (exec n) := by
  induction n with
  | zero => exact fun _ _ _ _ _ _ _ => .left _ _
  | succ n ih =>
    intro c e p he hp ha hc
    by_cases hl : p.length ≤ 2
    · exact duo_end hx hy (n + 1) c he hp hl ha hc
    obtain ⟨a, b, d, q, rfl⟩ := three (show 3 ≤ p.length by omega)
    have ht : ∀ t ∈ argOf c, Typed t := fun t h => hx t (List.mem_append_left _ (ha t h).1)
    show Duo pre x y (step (exec n) c _) (step (exec n) c _)
    cases c with
    | addErrorAndReSync t m => exact duo_err hx hy ih he hp hc.2
    | assignSpeedAltitude t => exact duo_level hx hy ih he hp (ht t (by simp [argOf])) hc.2
    | assignSpeedAltitudeAltitude t => exact duo_levels hx hy ih he hp (ht t (by simp [argOf])) hc.2
    | assignSpeedAltitudePlus t => exact duo_plus hx hy ih he hp (ht t (by simp [argOf])) hc.2
    | assignSpeedVfr t => exact duo_vfr hx hy ih he hp (ht t (by simp [argOf])) hc.2
    | breakEnd t => exact duo_breakEnd hx hy ih he hp
    | breakEndError t => exact duo_breakEndError hx hy ih he hp (ha t (by simp [argOf]))
    | breakStart t => exact duo_breakStart hx hy ih he hp
    | breakTextSave t => exact duo_text hx hy ih he hp (ha t (by simp [argOf]))
    | cruiseClimbC t => exact duo_C hx hy ih he hp
    | cruiseClimbPoint t => exact duo_ccPoint hx hy ih he hp (ht t (by simp [argOf]))
    | dct t => exact duo_dct hx hy ih he hp
    | forwardSlash t => exact duo_slash hx hy ih he hp
    | postAdep t => exact duo_postAdep hx hy ih he hp (ha t (by simp [argOf]))
    | postPoint t => exact duo_postPoint hx hy ih he hp (ha t (by simp [argOf]))
    | postSid => exact duo_postSid hx hy ih he hp
    | point t => exact duo_point hx hy ih he hp (ht t (by simp [argOf]))
    | reSync => exact duo_reSync hx hy ih he hp
    | route t => exact duo_route hx hy ih he hp
    | sid t => exact duo_sid hx hy ih he hp (ha t (by simp [argOf]))
    | sidStar t => exact duo_sidStar hx hy ih he hp
    | star t => exact duo_star hx hy ih he hp
    | stay t => exact duo_stay hx hy ih he hp
    | stayTime t => exact duo_stayTime hx hy ih he hp (ht t (by simp [argOf])) hc.2
    | truncate => exact duo_truncate hx hy ih he hp
    | vToI =>
      obtain ⟨p', sl, sp, rest, h1, h2, h3, h4⟩ := hc
      simp only [List.cons.injEq] at h1
      obtain ⟨rfl, rfl, rfl, rfl⟩ := h1
      exact duo_vToI hx hy ih he hp h4
    | vToIToV =>
      obtain ⟨p', sl, sp, rest, h1, h2, h3, h4⟩ := hc
      simp only [List.cons.injEq] at h1
      obtain ⟨rfl, rfl, rfl, rfl⟩ := h1
      exact duo_vToIToV hx hy ih he hp h4

end F15
