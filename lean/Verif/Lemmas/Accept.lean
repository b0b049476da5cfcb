import Verif.Lemmas.Clean
/-!
# Executions without new errors follow the grammar
-/

namespace F15
open Spec

set_option linter.unusedSectionVars false
variable {F : Type} [PyFloat F] {T : List Token}

/-- What a method call reads, as actions. -/
def Reads (e : Ers F) (ts : List Token) : Call → List Act → Prop
  | .point t, as => ∃ b, as = .point t :: b ∧ (Act.point t).nums = [] ∧ Run (.point (isFixed t)) ts b
  | .route t, as => ∃ b, as = .route t :: b ∧ Run .route ts b
  | .dct t, as => ∃ b, as = .plain t :: b ∧ Run .dct ts b
  | .sid t, as => e.recs.length = 1 ∧ ∃ b, as = .sid t :: b ∧ Run .sid ts b
  | .sidStar t, as => (e.recs.length = 1 ∧ ∃ b, as = .sid t :: b ∧ Run .sid ts b) ∨
      (e.recs.length ≠ 1 ∧ ts = [] ∧ as = [.star t])
  | .star t, as => ts = [] ∧ as = [.star t]
  | .stay _, as => ∃ s m ts' b, ts = s :: m :: ts' ∧ s.base = .SLASH ∧ m.base = .STAY_TIME ∧ as = .stay m :: b ∧ Run .stay ts' b
  | .stayTime m, as => ∃ b, as = .stay m :: b ∧ Run .stay ts b
  | .truncate, as => ts = [] ∧ as = []
  | .cruiseClimbC t, as => (∃ b, as = .plain t :: b ∧ Run .climb ts b) ∨
      (∃ s p s' l a ts' b, ts = s :: p :: s' :: l :: ts' ∧ s.base = .SLASH ∧ (Act.ccPoint p).nums = [] ∧ s'.base = .SLASH ∧
        ClimbAct l a ∧ as = .ccPoint p :: a :: b ∧ Run (.point (isFixed p)) ts' b)
  | .cruiseClimbPoint p, as => ∃ s' l a ts' b, ts = s' :: l :: ts' ∧ (Act.ccPoint p).nums = [] ∧ s'.base = .SLASH ∧
        ClimbAct l a ∧ as = .ccPoint p :: a :: b ∧ Run (.point (isFixed p)) ts' b
  | .assignSpeedAltitudeAltitude l, as | .assignSpeedAltitudePlus l, as =>
      ∃ a b, ClimbAct l a ∧ as = a :: b ∧ Run (.point (isLlOrBd (headSub e))) ts b
  | .assignSpeedAltitude l, as => ∃ b, as = .level l :: b ∧ (Act.level l).nums = [] ∧
      Run (if e.recs.length = 1 then .adep else .point (isLlOrBd (headSub e))) ts b
  | .assignSpeedVfr l, as => ∃ b, as = .vfr l :: b ∧ Run (.text (py! "VFR")) ts b
  | .forwardSlash _, as => ∃ l ts' b, ts = l :: ts' ∧
      ((l.base = .SPEED_ALTITUDE ∧ as = .level l :: b ∧ (Act.level l).nums = [] ∧ Run (.point (isLlOrBd (headSub e))) ts' b) ∨
       (l.base = .SPEED_VFR ∧ as = .vfr l :: b ∧ Run (.text (py! "VFR")) ts' b))
  | .postAdep t, as => Run .adep (t :: ts) as
  | .postPoint t, as => Run (.point (isLlOrBd (headSub e))) (t :: ts) as
  | .postSid, as => Run .sid ts as
  | .breakStart t, as => ∃ b, as = .brk t :: b ∧ Run (.text (rulesOfBreak t.sub)) ts b
  | .breakTextSave t, as => Run (.text (headRules e)) (t :: ts) as
  | .vToI, as => ∃ p s l ts' b, ts = p :: s :: l :: ts' ∧ as = .vToI p :: .level l :: b ∧ (Act.vToI p).nums = [] ∧
      (Act.level l).nums = [] ∧ Run (.point (isFixed p)) ts' b
  | .vToIToV, as => ∃ p s l ts' b, ts = p :: s :: l :: ts' ∧ as = .vToIToV p :: .vfr l :: b ∧ Run (.text (py! "VFR")) ts' b
  | _, _ => False

/-- The number of elements when the calls are made. -/
def Need (e : Ers F) : Call → Prop
  | .postAdep _ => e.recs.length = 1
  | .sid _ | .sidStar _ | .star _ | .dct _ | .point _ | .truncate | .assignSpeedAltitude _ | .assignSpeedVfr _
  | .addErrorAndReSync _ _ | .reSync => True
  | .breakEndError t => t.base = .BREAK_END
  | _ => 2 ≤ e.recs.length

/-- The outcome of an execution that adds no error. -/
def Fin (e : Ers F) (ts : List Token) (c : Call) (s : St (List Token) F) : Prop :=
  match c with
  | .reSync => True
  | .breakEnd t => (s = ⟨e, ts⟩ ∧ readOn t ts) ∨
      (s.toks = [] ∧ ∃ as, s.ers = runs as e ∧
        ((t.sub ≠ .IFR ∧ ∃ p ts' b, ts = p :: ts' ∧ p.base = .POINT ∧ as = .point p :: b ∧ (Act.point p).nums = [] ∧
            Run (.point (isFixed p)) ts' b) ∨
         (t.sub = .IFR ∧ ∃ p sl l ts' b, ts = p :: sl :: l :: ts' ∧ p.base = .POINT ∧ sl.base = .SLASH ∧
            ((l.base = .SPEED_ALTITUDE ∧ as = .vToI p :: .level l :: b ∧ (Act.vToI p).nums = [] ∧
              (Act.level l).nums = [] ∧ Run (.point (isFixed p)) ts' b) ∨
             (l.base = .SPEED_VFR ∧ as = .vToIToV p :: .vfr l :: b ∧ Run (.text (py! "VFR")) ts' b)))))
  | c => s.toks = [] ∧ ∃ as, Reads e ts c as ∧ s.ers = runs as e

/-- The induction hypothesis. -/
def FIH (T : List Token) (call : Call → ML F Unit) : Prop :=
  ∀ c e ts s, Inv T e ts → Pre T ts c → Need e c → call c ⟨e, ts⟩ = .ok ((), s) → s.ers.errs.length ≤ e.errs.length →
    Fin e ts c s

/-- Errors are not retracted. -/
def Mono (T : List Token) (call : Call → ML F Unit) : Prop :=
  ∀ c e ts s, Inv T e ts → Pre T ts c → call c ⟨e, ts⟩ = .ok ((), s) → e.errs.length ≤ s.ers.errs.length ∧ Inv T s.ers s.toks

theorem run_errs_len (a : Act) (e : Ers F) : (a.run e).errs.length = a.nums.length + e.errs.length := by
  rw [run_errs]; simp

theorem Star.errs_len {a b : Cfg F} (h : Star T a b) : a.ers.errs.length ≤ b.ers.errs.length := by
  induction h with
  | refl => exact Nat.le_refl _
  | head ev _ ih =>
    refine Nat.le_trans ?_ ih
    cases ev with
    | pop | drop => exact Nat.le_refl _
    | note a e | rcd a e => show e.errs.length ≤ (a.run e).errs.length; rw [run_errs_len]; omega

theorem mono_of {call : Call → ML F Unit} (ih : IH T call) : Mono T call := by
  intro c e ts s hi hp h
  have g := ih c e ts [] hi (.inl rfl) hp
  rw [h] at g
  have g : Star T _ _ := g
  exact ⟨Star.errs_len g, g.invs hi⟩

section
variable {call : Call → ML F Unit} (fi : FIH T call) (mo : Mono T call) (hT : ∀ t ∈ T, Typed t)
variable {e : Ers F} {ts : List Token} {s : St (List Token) F} (hi : Inv T e ts)
include fi mo hi

theorem no_err {e' : Ers F} {t : Token} {n : Nat} (hp : t ∈ T ∧ plainErr n) (hi' : Inv T e' ts)
    (h : call (.addErrorAndReSync t n) ⟨e', ts⟩ = .ok ((), s)) (hl : s.ers.errs.length ≤ e'.errs.length) : False := by
  have := fi (.addErrorAndReSync t n) e' ts s hi' hp trivial h hl
  exact this.2.elim fun _ h => h.1

/-- A call after an action. -/
theorem after {a : Act} {c : Call} (hp : Pre T ts c) (hn : Need (a.run e) c)
    (h : call c ⟨a.run e, ts⟩ = .ok ((), s)) (hl : s.ers.errs.length ≤ e.errs.length) :
    a.nums = [] ∧ Fin (a.run e) ts c s := by
  have h1 := (mo c _ _ _ (hi.run a) hp h).1
  have h2 := run_errs_len a e
  have : a.nums.length = 0 := by omega
  exact ⟨List.length_eq_zero_iff.1 this, fi c _ _ _ (hi.run a) hp hn h (by omega)⟩

/-- An error call after an action is impossible. -/
theorem after_err {a : Act} {t : Token} {n : Nat} (hp : t ∈ T ∧ plainErr n)
    (h : call (.addErrorAndReSync t n) ⟨a.run e, ts⟩ = .ok ((), s)) (hl : s.ers.errs.length ≤ e.errs.length) : False := by
  have := (after fi mo hi (c := .addErrorAndReSync t n) hp trivial h hl).2
  exact this.2.elim fun _ h => h.1

theorem after_bee {a : Act} {t : Token} (hp : t ∈ T) (hn : t.base = .BREAK_END)
    (h : call (.breakEndError t) ⟨a.run e, ts⟩ = .ok ((), s)) (hl : s.ers.errs.length ≤ e.errs.length) : False := by
  have := (after fi mo hi (c := .breakEndError t) hp hn h hl).2
  exact this.2.elim fun _ h => h.1

theorem no_bee {t : Token} (hp : t ∈ T) (hn : t.base = .BREAK_END)
    (h : call (.breakEndError t) ⟨e, ts⟩ = .ok ((), s)) (hl : s.ers.errs.length ≤ e.errs.length) : False := by
  have := fi (.breakEndError t) _ _ _ hi hp hn h hl
  exact this.2.elim fun _ h => h.1
end

/-- The item calls give runs of any phase that allows the token. -/
theorem item {e : Ers F} {ts : List Token} {as : List Act} {q : Phase} {t : Token} (hq : q.allows t) :
    (t.base = .POINT → Reads e ts (.point t) as → Run q (t :: ts) as) ∧
    (t.base = .ROUTE → Reads e ts (.route t) as → Run q (t :: ts) as) ∧
    (t.base = .DCT → Reads e ts (.dct t) as → Run q (t :: ts) as) ∧
    (t.base = .STAR → Reads e ts (.star t) as → Run q (t :: ts) as) ∧
    (t.base = .TRUNCATE → Reads e ts .truncate as → Run q (t :: ts) as) ∧
    (t.base = .STAY → Reads e ts (.stay t) as → Run q (t :: ts) as) ∧
    (t.base = .BREAK_START → Reads e ts (.breakStart t) as → Run q (t :: ts) as) ∧
    (t.base = .C → Reads e ts (.cruiseClimbC t) as → Run q (t :: ts) as) ∧
    (t.base = .SID_STAR → q ≠ .adep → 2 ≤ e.recs.length → Reads e ts (.sidStar t) as → Run q (t :: ts) as) := by
  refine ⟨?_, ?_, ?_, ?_, ?_, ?_, ?_, ?_, ?_⟩
  · rintro hb ⟨b, rfl, hn, h⟩; exact .point hq hb (fun _ => hn) h
  · rintro hb ⟨b, rfl, h⟩; exact .route hq hb h
  · rintro hb ⟨b, rfl, h⟩; exact .dct hq hb h
  · rintro hb ⟨rfl, rfl⟩; exact .star hq (.inl hb)
  · rintro hb ⟨rfl, rfl⟩; exact .truncate hq hb
  · rintro hb ⟨sl, m, ts', b, rfl, h1, h2, rfl, h⟩; exact .stay hq hb h1 h2 h
  · rintro hb ⟨b, rfl, h⟩; exact .break_ hq hb h
  · rintro hb (⟨b, rfl, h⟩ | ⟨sl, p, s', l, a, ts', b, rfl, h1, h2, h3, h4, rfl, h⟩)
    · exact .climb hq hb h
    · exact .cruise hq hb h1 (fun _ => h2) h3 h4 h
  · rintro hb hne h2 (⟨h, _⟩ | ⟨_, rfl, rfl⟩)
    · omega
    · exact .star hq (.inr ⟨hb, hne⟩)

end F15
