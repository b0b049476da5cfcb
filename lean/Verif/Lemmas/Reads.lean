import Verif.Lemmas.ErrOrder
/-!
# Does the parser read to the end?

Every method returns only when all tokens have been read, with one exception: after an error, when the parser re-synchronises
on a token that ends a break (`IFR`, `GAT`, `IFPSTART`), `break_end` may return with tokens left, and nothing is read after that.
-/

namespace F15
open Spec

set_option linter.unusedSectionVars false
variable {F : Type} [PyFloat F]

/-- All tokens are read, or errors were noted and the last token read ends a break. -/
def Finished (T : List Token) (e : Ers F) (ts : List Token) : Prop :=
  ts = [] ∨ (e.errs ≠ [] ∧ ∃ pre t, T = pre ++ t :: ts ∧ t.base = .BREAK_END)

/-- What every run keeps. -/
structure GoesOn (e : Ers F) (ts : List Token) (e1 : Ers F) (ts1 : List Token) : Prop where
  ne : e1.recs ≠ []
  errs : e.errs ≠ [] → e1.errs ≠ []
  suf : ts1 <:+ ts

/-- The run reads on to the end. -/
def Rd (T : List Token) (e : Ers F) (ts : List Token) (r : Res F) : Prop :=
  ∀ e1 ts1, r = done e1 ts1 → GoesOn e ts e1 ts1 ∧ Finished T e1 ts1

theorem GoesOn.refl {e : Ers F} {ts : List Token} (h : e.recs ≠ []) : GoesOn e ts e ts := ⟨h, id, List.suffix_refl _⟩

theorem GoesOn.trans {e e1 e2 : Ers F} {ts ts1 ts2 : List Token} (h : GoesOn e ts e1 ts1) (k : GoesOn e1 ts1 e2 ts2) : GoesOn e ts e2 ts2 :=
  ⟨k.ne, fun h' => k.errs (h.errs h'), k.suf.trans h.suf⟩

theorem Rd.ret {T : List Token} {e : Ers F} (h : e.recs ≠ []) : Rd T e [] (done e []) := by
  intro e1 ts1 h1; cases h1
  exact ⟨.refl h, .inl rfl⟩

theorem Rd.act {T : List Token} {e : Ers F} {ts : List Token} {r : Res F} (a : Act) (h : Rd T (a.run e) ts r) : Rd T e ts r := by
  intro e1 ts1 h1
  obtain ⟨k1, k2⟩ := h e1 ts1 h1
  exact ⟨⟨k1.ne, fun hx => k1.errs (by rw [run_errs]; simp [hx]), k1.suf⟩, k2⟩

theorem Rd.pop {T : List Token} {e : Ers F} {t : Token} {ts : List Token} {r : Res F} (h : Rd T e ts r) : Rd T e (t :: ts) r := by
  intro e1 ts1 h1
  obtain ⟨k1, k2⟩ := h e1 ts1 h1
  exact ⟨⟨k1.ne, k1.errs, k1.suf.trans (List.suffix_cons t ts)⟩, k2⟩

/-- Any run, then one that reads on. -/
theorem Rd.andThen {T : List Token} {e : Ers F} {ts : List Token} {r : Res F} {k : Ers F → List Token → Res F}
    (h : ∀ e1 ts1, r = done e1 ts1 → GoesOn e ts e1 ts1)
    (hk : ∀ e1 ts1, GoesOn e ts e1 ts1 → r = done e1 ts1 → Rd T e1 ts1 (k e1 ts1)) : Rd T e ts (andThen r k) := by
  intro e2 ts2 h2
  cases r with
  | error x => cases h2
  | ok q =>
    obtain ⟨u, e1, ts1⟩ := q
    have h3 := h e1 ts1 rfl
    obtain ⟨k1, k2⟩ := hk e1 ts1 h3 rfl e2 ts2 h2
    exact ⟨h3.trans k1, k2⟩

/-- What some calls need. -/
def NeedR (e : Ers F) : Call → Prop
  | .reSync => e.errs ≠ []
  | .breakEndError t => t.base = .BREAK_END
  | .breakEnd _ => False
  | _ => True

/-- Any call. -/
def WeakIH (T : List Token) (call : Call → ML F Unit) : Prop :=
  ∀ c e ts, e.recs ≠ [] → ts <:+ T → Pre T ts c → ∀ e1 ts1, call c ⟨e, ts⟩ = done e1 ts1 → GoesOn e ts e1 ts1

/-- Every call but `break_end`. -/
def ReadIH (T : List Token) (call : Call → ML F Unit) : Prop :=
  ∀ c e ts, e.recs ≠ [] → ts <:+ T → Pre T ts c → NeedR e c → Rd T e ts (call c ⟨e, ts⟩)

/-- `break_end` after an error. -/
def BreakIH (T : List Token) (call : Call → ML F Unit) : Prop :=
  ∀ t e ts, e.recs ≠ [] → t :: ts <:+ T → t.base = .BREAK_END → e.errs ≠ [] → Rd T e ts (call (.breakEnd t) ⟨e, ts⟩)

section
variable {T : List Token} {call : Call → ML F Unit} (ih : ReadIH T call) (ihb : BreakIH T call) (ihw : WeakIH T call) (hT : ∀ t ∈ T, Typed t)
variable {e : Ers F} {ts : List Token} (ho : e.recs ≠ []) (hs : ts <:+ T)
include ih ho hs

set_option hygiene false in
local macro "fin" : tactic => `(tactic| (first
  | exact Rd.ret ho
  | exact ih _ _ _ ho hs (by simp [Pre, *]; try decide) (by first | trivial | exact hb | assumption)))

set_option hygiene false in
/-- Take the next token. -/
local macro "pop" : tactic => `(tactic| (
  refine Rd.pop ?_
  have hm := hs.subset (List.mem_cons_self ..)
  have hj := hs
  have hs' := hs
  replace hs := (List.suffix_cons _ _).trans hs
  try dsimp only))

theorem rd_err {t : Token} {n : Nat} (hn : plainErr n = true) : Rd T e ts (step call (.addErrorAndReSync t n) ⟨e, ts⟩) := by
  rw [step_err call t n (plainErr.isSome hn) e ts ho]
  refine Rd.act (.err t n) ?_
  exact ih _ _ _ (Act.run_ne _ _ ho) hs trivial (by rw [NeedR, run_errs]; simp [Act.nums])

theorem rd_postAdep {t : Token} (hm : t ∈ T) : Rd T e ts (step call (.postAdep t) ⟨e, ts⟩) := by
  show Rd T e ts (postAdep call t ⟨e, ts⟩)
  unfold postAdep
  cases hb : t.base
  all_goals fin

theorem rd_postPoint {t : Token} (hm : t ∈ T) : Rd T e ts (step call (.postPoint t) ⟨e, ts⟩) := by
  rw [step_postPoint call t e ts ho]
  cases hb : t.base
  case ROUTE =>
    dsimp only
    split
    · fin
    · fin
  all_goals fin

theorem rd_breakEndError {t : Token} (hm : t ∈ T) (ht : Typed t) (hb : t.base = .BREAK_END) : Rd T e ts (step call (.breakEndError t) ⟨e, ts⟩) := by
  show Rd T e ts (breakEndError call t ⟨e, ts⟩)
  have hsub := typed_in ht _ hb [.IFR, .GAT, .IFPSTART] (by decide) (by decide +kernel)
  unfold breakEndError
  split
  · exact ih _ _ _ ho hs ⟨hm, by decide⟩ trivial
  · split
    · exact ih _ _ _ ho hs ⟨hm, by decide⟩ trivial
    · split
      · exact ih _ _ _ ho hs ⟨hm, by decide⟩ trivial
      · rename_i h1 h2 h3; simp [h1, h2, h3] at hsub

theorem rd_truncate : Rd T e ts (step call .truncate ⟨e, ts⟩) := by
  rw [step_truncate]
  cases ts with
  | nil => fin
  | cons nt ts => pop; fin

theorem rd_postSid : Rd T e ts (step call .postSid ⟨e, ts⟩) := by
  rw [step_postSid]
  cases ts with
  | nil => fin
  | cons nt ts =>
    pop
    cases hb : nt.base
    all_goals fin

theorem rd_slash {t : Token} (hm : t ∈ T) : Rd T e ts (step call (.forwardSlash t) ⟨e, ts⟩) := by
  rw [step_slash]
  cases ts with
  | nil => fin
  | cons nt ts =>
    clear hm
    pop
    cases hb : nt.base
    all_goals fin

include ihb in
theorem rd_reSync (he : e.errs ≠ []) : Rd T e ts (step call .reSync ⟨e, ts⟩) := by
  rw [step_reSync]
  cases ts with
  | nil => fin
  | cons t ts =>
    pop
    cases hb : t.base
    case SLASH =>
      dsimp only
      cases ts with
      | nil => fin
      | cons nt ts =>
        clear hm
        pop
        cases hb : nt.base
        all_goals fin
    case BREAK_END => exact ihb t e ts ho hs' hb he
    all_goals fin

theorem rd_stay {t : Token} (hm : t ∈ T) : Rd T e ts (step call (.stay t) ⟨e, ts⟩) := by
  rw [step_stay]
  cases ts with
  | nil => fin
  | cons nt ts =>
    clear hm
    pop
    split
    · fin
    · cases ts with
      | nil => fin
      | cons nt2 ts =>
        clear hm
        pop
        split
        · fin
        · rename_i h
          exact ih _ _ _ ho hs ⟨hm, Decidable.not_not.1 h⟩ trivial

theorem rd_textTail : Rd T e ts (textTail call e ts) := by
  unfold textTail
  cases ts with
  | nil => fin
  | cons nt ts => pop; fin

theorem rd_endTail : Rd T e ts (endTail call e ts) := by
  unfold endTail
  cases ts with
  | nil => fin
  | cons nt ts => pop; fin

include hT

theorem rd_point {t : Token} (hm : t ∈ T) : Rd T e ts (step call (.point t) ⟨e, ts⟩) := by
  rw [step_point call t (hT t hm) e ts ho]
  refine Rd.act (.point t) ?_
  replace ho := Act.run_ne (.point t) _ ho
  cases ts with
  | nil => fin
  | cons nt ts => clear hm; pop; fin

theorem rd_dct {t : Token} (hm : t ∈ T) : Rd T e ts (step call (.dct t) ⟨e, ts⟩) := by
  rw [step_dct call t e ts ho]
  refine Rd.act (.plain t) ?_
  replace ho := Act.run_ne (.plain t) _ ho
  cases ts with
  | nil => fin
  | cons nt ts =>
    clear hm
    pop
    cases hb : nt.base
    all_goals fin

theorem rd_sid {t : Token} (hm : t ∈ T) : Rd T e ts (step call (.sid t) ⟨e, ts⟩) := by
  rw [step_sid call t e ts ho]
  split
  · refine Rd.act (.sid t) ?_
    replace ho := Act.run_ne (.sid t) _ ho
    exact ih _ _ _ ho hs trivial trivial
  · refine Rd.act (.plain t) ?_
    replace ho := Act.run_ne (.plain t) _ ho
    exact ih _ _ _ ho hs ⟨hm, by decide⟩ trivial

theorem rd_sidStar {t : Token} (hm : t ∈ T) : Rd T e ts (step call (.sidStar t) ⟨e, ts⟩) := by
  rw [step_sidStar call t e ts ho]
  split
  · refine Rd.act (.sid t) ?_
    replace ho := Act.run_ne (.sid t) _ ho
    exact ih _ _ _ ho hs trivial trivial
  · cases ts with
    | nil => exact Rd.act (.star t) (.ret (Act.run_ne (.star t) _ ho))
    | cons pk ts =>
      refine Rd.act (.plain t) ?_
      replace ho := Act.run_ne (.plain t) _ ho
      have hm' : pk ∈ T := hs.subset (by simp)
      clear hm
      have hm := hm'
      fin

theorem rd_star {t : Token} (hm : t ∈ T) : Rd T e ts (step call (.star t) ⟨e, ts⟩) := by
  rw [step_star call t e ts ho]
  cases ts with
  | nil => exact Rd.act (.star t) (.ret (Act.run_ne (.star t) _ ho))
  | cons pk ts =>
    refine Rd.act (.plain t) ?_
    replace ho := Act.run_ne (.plain t) _ ho
    have hm' : pk ∈ T := hs.subset (by simp)
    clear hm
    have hm := hm'
    fin

theorem rd_stayTime {t : Token} (hm : t ∈ T) (hb : t.base = .STAY_TIME) :
    Rd T e ts (step call (.stayTime t) ⟨e, ts⟩) := by
  rw [step_stayTime call t (stay_facts (hT t hm) hb) e ts ho]
  refine Rd.act (.stay t) ?_
  replace ho := Act.run_ne (.stay t) _ ho
  cases ts with
  | nil => fin
  | cons nt ts =>
    clear hm
    pop
    cases hb : nt.base
    all_goals fin

theorem rd_breakStart {t : Token} (hm : t ∈ T) : Rd T e ts (step call (.breakStart t) ⟨e, ts⟩) := by
  rw [step_breakStart call t e ts ho]
  refine Rd.act (.brk t) ?_
  replace ho := Act.run_ne (.brk t) _ ho
  cases ts with
  | nil => fin
  | cons nt ts =>
    clear hm
    pop
    split <;> fin

include ihw in
theorem rd_textBody {t : Token} (hm : t ∈ T) (hj : t.base = .TOO_LONG ∨ t :: ts <:+ T) : Rd T e ts (textBody call t e ts ho) := by
  have ho' := Act.run_ne (.text t) _ ho
  unfold textBody
  split
  · rename_i hb
    have hj' : t :: ts <:+ T := hj.resolve_left fun hl => by rw [long_no_end (hT t hm) hl] at hb; cases hb
    refine Rd.act (.text t) ?_
    refine Rd.andThen (ihw _ _ _ ho' hs hj') fun e1 ts1 h1 _ => ?_
    exact rd_textTail ih h1.ne (h1.suf.trans hs)
  · refine Rd.act (.text t) ?_
    exact rd_textTail ih ho' hs

include ihw in
theorem rd_text {t : Token} (hj : t :: ts <:+ T) (hm : t ∈ T) : Rd T e ts (step call (.breakTextSave t) ⟨e, ts⟩) := by
  by_cases hb : t.base = .TOO_LONG
  · rw [step_text_long call t e ts hb]
    refine Rd.andThen (ihw _ _ _ ho hs ⟨hm, by decide⟩) fun e1 ts1 h1 _ => ?_
    rw [dif_pos h1.ne]
    exact rd_textBody ih ihw hT h1.ne (h1.suf.trans hs) hm (.inl hb)
  · rw [step_text call t e ts ho hb]
    exact rd_textBody ih ihw hT ho hs hm (.inr hj)

theorem rd_C {t : Token} (hm : t ∈ T) : Rd T e ts (step call (.cruiseClimbC t) ⟨e, ts⟩) := by
  rw [step_C call t e ts ho]
  have ho' := Act.run_ne (.plain t) _ ho
  cases ts with
  | nil => exact Rd.act (.plain t) (.ret ho')
  | cons nt ts =>
    clear hm
    dsimp only
    cases hb' : nt.base
    case UNKNOWN | SPEED_VFR | SPEED_ALTITUDE | BREAK_END | SPEED_ALTITUDE_ALTITUDE | SPEED_ALTITUDE_PLUS | TOO_LONG |
        STAY_TIME =>
      pop
      fin
    case SLASH =>
      dsimp only
      cases ts with
      | nil =>
        refine Rd.act (.plain t) ?_
        replace ho := ho'
        pop
        fin
      | cons nt2 ts =>
        pop
        clear hm
        pop
        fin
    all_goals
      refine Rd.act (.plain t) ?_
      replace ho := ho'
      pop
      fin

include ihw in
theorem rd_breakEnd {t : Token} (hs' : t :: ts <:+ T) (hb : t.base = .BREAK_END) (he : e.errs ≠ []) :
    Rd T e ts (step call (.breakEnd t) ⟨e, ts⟩) := by
  have stop : Rd T e ts (done e ts) := by
    intro e1 ts1 h; cases h
    obtain ⟨pre, hpre⟩ := hs'
    exact ⟨.refl ho, .inr ⟨he, pre, t, hpre.symm, hb⟩⟩
  rw [step_breakEnd]
  cases ts with
  | nil => fin
  | cons p ts' =>
    have hm : p ∈ T := hs.subset (by simp)
    dsimp only
    split
    · exact stop
    rename_i hp
    split
    · cases ts' with
      | nil => exact ih _ _ _ ho hs ⟨hm, by decide⟩ trivial
      | cons sl ts'' =>
        dsimp only
        split
        · exact stop
        rename_i hsl
        cases ts'' with
        | nil => exact ih _ _ _ ho hs ⟨hm, by decide⟩ trivial
        | cons sp ts3 =>
          dsimp only
          split
          · rename_i hsp
            refine Rd.andThen (ihw _ _ _ ho hs
              ⟨p, sl, sp, ts3, rfl, Decidable.not_not.1 hp, Decidable.not_not.1 hsl, hsp⟩) fun e1 ts1 h1 _ => ?_
            exact rd_endTail ih h1.ne (h1.suf.trans hs)
          · split
            · rename_i hsp
              refine Rd.andThen (ihw _ _ _ ho hs
                ⟨p, sl, sp, ts3, rfl, Decidable.not_not.1 hp, Decidable.not_not.1 hsl, hsp, t, by assumption, hs'⟩) fun e1 ts1 h1 _ => ?_
              exact rd_endTail ih h1.ne (h1.suf.trans hs)
            · exact ih _ _ _ ho hs ⟨hm, by decide⟩ trivial
    · pop
      exact ih _ _ _ ho hs hm trivial

theorem rd_level {t : Token} (hm : t ∈ T) (hb : t.base = .SPEED_ALTITUDE) :
    Rd T e ts (step call (.assignSpeedAltitude t) ⟨e, ts⟩) := by
  rw [step_level call t (hT t hm) hb e ts ho]
  refine Rd.act (.level t) ?_
  replace ho := Act.run_ne (.level t) _ ho
  cases ts with
  | nil => fin
  | cons nt ts =>
    clear hm
    pop
    split <;> fin

theorem rd_levelsK (a : Act) : Rd T e ts (levelsK call a e ts) := by
  refine Rd.act a ?_
  replace ho := Act.run_ne a _ ho
  unfold levelsK
  cases ts with
  | nil => fin
  | cons nt ts => pop; fin

theorem rd_levels {t : Token} (hm : t ∈ T) (hb : t.base = .SPEED_ALTITUDE_ALTITUDE) :
    Rd T e ts (step call (.assignSpeedAltitudeAltitude t) ⟨e, ts⟩) := by
  by_cases hbad : t.sub ∈ ccBad
  · rw [step_levels_bad call t (hT t hm) hbad e ts ho]
    intro e1 ts1 h; cases h
  · rw [step_levels call t (hT t hm) hb hbad e ts ho]
    exact rd_levelsK ih hT ho hs (.levels t)

theorem rd_plus {t : Token} (hm : t ∈ T) (hb : t.base = .SPEED_ALTITUDE_PLUS) :
    Rd T e ts (step call (.assignSpeedAltitudePlus t) ⟨e, ts⟩) := by
  rw [step_plus call t (hT t hm) hb e ts ho]
  exact rd_levelsK ih hT ho hs (.plus t)

theorem rd_vfr {t : Token} (hm : t ∈ T) (hb : t.base = .SPEED_VFR) :
    Rd T e ts (step call (.assignSpeedVfr t) ⟨e, ts⟩) := by
  rw [step_vfr call t (hT t hm) hb e ts ho]
  refine Rd.act (.vfr t) ?_
  replace ho := Act.run_ne (.vfr t) _ ho
  cases ts with
  | nil => fin
  | cons nt ts => clear hm; pop; fin

theorem rd_vToI {p sl sp : Token} (hts : ∃ rest, ts = p :: sl :: sp :: rest) (hsp : sp.base = .SPEED_ALTITUDE) :
    Rd T e ts (step call .vToI ⟨e, ts⟩) := by
  obtain ⟨rest, rfl⟩ := hts
  have hp : p ∈ T := hs.subset (by simp)
  rw [step_vToI call p sl sp (hT p hp) e rest ho]
  refine Rd.act (.vToI p) ?_
  replace ho := Act.run_ne (.vToI p) _ ho
  pop
  clear hm
  pop
  clear hm
  pop
  fin

theorem rd_vToIToV {p sl sp : Token} (hts : ∃ rest, ts = p :: sl :: sp :: rest) (hsp : sp.base = .SPEED_VFR) :
    Rd T e ts (step call .vToIToV ⟨e, ts⟩) := by
  obtain ⟨rest, rfl⟩ := hts
  rw [step_vToIToV call p sl sp e rest ho]
  refine Rd.act (.vToIToV p) ?_
  replace ho := Act.run_ne (.vToIToV p) _ ho
  pop
  clear hm
  pop
  clear hm
  pop
  fin

include ihw

theorem rd_route {t : Token} (hm : t ∈ T) : Rd T e ts (step call (.route t) ⟨e, ts⟩) := by
  rw [step_route call t e ts ho]
  refine Rd.act (.route t) ?_
  replace ho := Act.run_ne (.route t) _ ho
  cases ts with
  | nil => fin
  | cons nt ts =>
    clear hm
    pop
    cases hb : nt.base
    case POINT =>
      dsimp only
      split
      · refine Rd.andThen (ihw _ _ _ ho hs ⟨hm, by decide⟩) fun e1 ts1 h1 _ => ?_
        exact ih _ _ _ h1.ne (h1.suf.trans hs) hm trivial
      · fin
    all_goals fin

theorem rd_climbTail (t : Token) (ht : t ∈ T) : Rd T e ts (climbTail call t e ts) := by
  unfold climbTail
  cases ts with
  | nil => exact ih _ _ _ ho hs ⟨ht, by decide⟩ trivial
  | cons nt2 ts =>
    pop
    refine Rd.andThen ?_ fun e1 ts1 h1 _ => rd_endTail ih h1.ne (h1.suf.trans hs)
    split
    · rename_i h; exact ihw _ _ _ ho hs ⟨hm, h⟩
    · split
      · rename_i h; exact ihw _ _ _ ho hs ⟨hm, h⟩
      · exact ihw _ _ _ ho hs ⟨hm, by decide⟩

theorem rd_ccPoint {t : Token} (hm : t ∈ T) : Rd T e ts (step call (.cruiseClimbPoint t) ⟨e, ts⟩) := by
  rw [step_ccPoint call t (hT t hm) e ts ho]
  refine Rd.act (.ccPoint t) ?_
  replace ho := Act.run_ne (.ccPoint t) _ ho
  have ht := hm
  have kk := fun e1 ts1 (h1 : e1.recs ≠ []) (h2 : ts1 <:+ T) => rd_climbTail (e := e1) (ts := ts1) ih ihw hT h1 h2 t ht
  unfold climbTail at kk
  dsimp only
  cases ts with
  | nil => exact ih _ _ _ ho hs ⟨ht, by decide⟩ trivial
  | cons nt ts =>
    clear hm
    pop
    split
    · exact Rd.andThen (ihw _ _ _ ho hs ⟨hm, by decide⟩) fun e1 ts1 h1 _ => kk _ _ h1.ne (h1.suf.trans hs)
    · exact kk _ _ ho hs

end

theorem weak_exec {T : List Token} (hT : ∀ t ∈ T, Typed t) (n : Nat) : WeakIH (F := F) T (exec n) := by
  intro c e ts he hs hp e1 ts1 h
  have g := trace_exec (F := F) hT n c e ts [] ⟨he, hs⟩ (.inl rfl) hp
  rw [h] at g
  change Star _ _ _ at g
  refine ⟨(g.invs ⟨he, hs⟩).ne, fun hx => ?_, g.toks⟩
  obtain ⟨r, hr⟩ := List.exists_mem_of_ne_nil _ hx
  exact List.ne_nil_of_mem (g.retains (r := r) hr)

/-- Every method but `break_end` reads on to the end. -/
theorem reads_exec {T : List Token} (hT : ∀ t ∈ T, Typed t) (n : Nat) : ReadIH (F := F) T (exec n) ∧ BreakIH (F := F) T (exec n) := by
  induction n with
  | zero =>
    constructor
    · intro c e ts _ _ _ _ e1 ts1 h; exact absurd h (by simp [exec])
    · intro t e ts _ _ _ _ e1 ts1 h; exact absurd h (by simp [exec])
  | succ n ihn =>
    obtain ⟨ih, ihb⟩ := ihn
    have ihw := weak_exec (F := F) hT n
    constructor
    · intro c e ts ho hs hp hn
      show Rd T e ts (step (exec n) c ⟨e, ts⟩)
      cases c with
      | addErrorAndReSync t m => exact rd_err ih ho hs hp.2
      | assignSpeedAltitude t => exact rd_level ih hT ho hs hp.1 hp.2
      | assignSpeedAltitudeAltitude t => exact rd_levels ih hT ho hs hp.1 hp.2
      | assignSpeedAltitudePlus t => exact rd_plus ih hT ho hs hp.1 hp.2
      | assignSpeedVfr t => exact rd_vfr ih hT ho hs hp.1 hp.2
      | breakEnd t => exact absurd hn (by simp [NeedR])
      | breakEndError t => exact rd_breakEndError ih ho hs hp (hT t hp) hn
      | breakStart t => exact rd_breakStart ih hT ho hs hp.1
      | breakTextSave t => exact rd_text ih ihw hT ho hs hp (hp.subset (by simp))
      | cruiseClimbC t => exact rd_C ih hT ho hs hp.1
      | cruiseClimbPoint t => exact rd_ccPoint ih ihw hT ho hs hp
      | dct t => exact rd_dct ih hT ho hs hp.1
      | forwardSlash t => exact rd_slash ih ho hs hp
      | postAdep t => exact rd_postAdep ih ho hs hp
      | postPoint t => exact rd_postPoint ih ho hs hp
      | postSid => exact rd_postSid ih ho hs
      | point t => exact rd_point ih hT ho hs hp
      | reSync => exact rd_reSync ih ihb ho hs hn
      | route t => exact rd_route ih ihw hT ho hs hp.1
      | sid t => exact rd_sid ih hT ho hs hp.1
      | sidStar t => exact rd_sidStar ih hT ho hs hp.1
      | star t => exact rd_star ih hT ho hs hp.1
      | stay t => exact rd_stay ih ho hs hp
      | stayTime t => exact rd_stayTime ih hT ho hs hp.1 hp.2
      | truncate => exact rd_truncate ih ho hs
      | vToI =>
        obtain ⟨p, sl, sp, rest, h1, h2, h3, h4⟩ := hp
        exact rd_vToI ih hT ho hs ⟨rest, h1⟩ h4
      | vToIToV =>
        obtain ⟨p, sl, sp, rest, h1, h2, h3, h4⟩ := hp
        exact rd_vToIToV ih hT ho hs ⟨rest, h1⟩ h4.1
    · intro t e ts ho hs hb he
      exact rd_breakEnd ih ihw hT ho ((List.suffix_cons _ _).trans hs) hs hb he

end F15
