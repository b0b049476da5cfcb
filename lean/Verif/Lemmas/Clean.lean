import Verif.Lemmas.Fuel
import Verif.Lemmas.Parse
import Verif.Lemmas.History
import Verif.Spec.Grammar
/-!
# Accepted runs

`Run q ts as`: the grammar of `Spec/Grammar.lean` annotated with the actions performed. `fwd_exec`: an execution that adds no
error follows `Run`.
-/

namespace F15
open Spec

set_option linter.unusedSectionVars false
variable {F : Type} [PyFloat F]

/-- The levels of a cruise climb and their action. -/
def ClimbActG (c : Prop) (t : Token) (a : Act) : Prop :=
  (t.base = .SPEED_ALTITUDE_ALTITUDE ∧ t.sub ∉ ccBad ∧ a = .levels t ∧ (c → a.nums = [])) ∨
  (t.base = .SPEED_ALTITUDE_PLUS ∧ a = .plus t ∧ (c → a.nums = []))

/-- The levels of a cruise climb and their action, without wrong numbers. -/
abbrev ClimbAct (t : Token) (a : Act) : Prop := ClimbActG True t a

/-- The annotated grammar. If `c` holds, without wrong numbers. -/
inductive RunG (c : Prop) : Phase → List Token → List Act → Prop
  | stop (q : Phase) : RunG c q [] []
  | truncate {q t} (hq : q.allows t) (hb : t.base = .TRUNCATE) : RunG c q [t] []
  | star {q t} (hq : q.allows t) (hb : t.base = .STAR ∨ (t.base = .SID_STAR ∧ q ≠ .adep)) : RunG c q [t] [.star t]
  | sid {t ts as} (hb : t.base = .SID ∨ t.base = .SID_STAR) (h : RunG c .sid ts as) : RunG c .adep (t :: ts) (.sid t :: as)
  | dct {q t ts as} (hq : q.allows t) (hb : t.base = .DCT) (h : RunG c .dct ts as) : RunG c q (t :: ts) (.plain t :: as)
  | route {q t ts as} (hq : q.allows t) (hb : t.base = .ROUTE) (h : RunG c .route ts as) : RunG c q (t :: ts) (.route t :: as)
  | point {q t ts as} (hq : q.allows t) (hb : t.base = .POINT) (hn : c → (Act.point t).nums = [])
      (h : RunG c (.point (isFixed t)) ts as) : RunG c q (t :: ts) (.point t :: as)
  | climb {q t ts as} (hq : q.allows t) (hb : t.base = .C) (h : RunG c .climb ts as) : RunG c q (t :: ts) (.plain t :: as)
  | cruise {q t s p s' l a ts as} (hq : q.allows t) (hb : t.base = .C) (hs : s.base = .SLASH)
      (hp : c → (Act.ccPoint p).nums = []) (hs' : s'.base = .SLASH) (hl : ClimbActG c l a)
      (h : RunG c (.point (isFixed p)) ts as) :
      RunG c q (t :: s :: p :: s' :: l :: ts) (.ccPoint p :: a :: as)
  | stay {q t s m ts as} (hq : q.allows t) (hb : t.base = .STAY) (hs : s.base = .SLASH) (hm : m.base = .STAY_TIME)
      (h : RunG c .stay ts as) : RunG c q (t :: s :: m :: ts) (.stay m :: as)
  | break_ {q t ts as} (hq : q.allows t) (hb : t.base = .BREAK_START) (h : RunG c (.text (rulesOfBreak t.sub)) ts as) :
      RunG c q (t :: ts) (.brk t :: as)
  | level {f s l ts as} (hs : s.base = .SLASH) (hb : l.base = .SPEED_ALTITUDE) (hl : c → (Act.level l).nums = [])
      (h : RunG c (.point f) ts as) : RunG c (.point f) (s :: l :: ts) (.level l :: as)
  | vfr {f s l ts as} (hs : s.base = .SLASH) (hb : l.base = .SPEED_VFR) (h : RunG c (.text (py! "VFR")) ts as) :
      RunG c (.point f) (s :: l :: ts) (.vfr l :: as)
  | word {r t ts as} (hb : t.base ≠ .TOO_LONG) (hc : closes t r → readOn t ts) (h : RunG c (.text r) ts as) :
      RunG c (.text r) (t :: ts) (.text t :: as)
  | resume {r t p ts as} (hc : closes t r) (hi : t.sub ≠ .IFR) (hb : t.base ≠ .TOO_LONG) (hp : p.base = .POINT)
      (hn : c → (Act.point p).nums = []) (h : RunG c (.point (isFixed p)) ts as) :
      RunG c (.text r) (t :: p :: ts) (.text t :: .point p :: as)
  | resumeIfr {r t p s l ts as} (hc : closes t r) (hi : t.sub = .IFR) (hb : t.base ≠ .TOO_LONG) (hp : p.base = .POINT)
      (hn : c → (Act.vToI p).nums = []) (hs : s.base = .SLASH) (hl : l.base = .SPEED_ALTITUDE) (hk : c → (Act.level l).nums = [])
      (h : RunG c (.point (isFixed p)) ts as) :
      RunG c (.text r) (t :: p :: s :: l :: ts) (.text t :: .vToI p :: .level l :: as)
  | resumeVfr {r t p s l ts as} (hc : closes t r) (hi : t.sub = .IFR) (hb : t.base ≠ .TOO_LONG) (hp : p.base = .POINT)
      (hs : s.base = .SLASH) (hl : l.base = .SPEED_VFR) (h : RunG c (.text (py! "VFR")) ts as) :
      RunG c (.text r) (t :: p :: s :: l :: ts) (.text t :: .vToIToV p :: .vfr l :: as)

/-- The annotated grammar without wrong numbers. -/
abbrev Run (q : Phase) (ts : List Token) (as : List Act) : Prop := RunG True q ts as

/-- Perform actions. -/
def runs (as : List Act) (e : Ers F) : Ers F := as.foldl (fun e a => a.run e) e

theorem runs_cons (a : Act) (as : List Act) (e : Ers F) : runs (a :: as) e = runs as (a.run e) := rfl

theorem ClimbActG.clean {t : Token} {a : Act} (h : ClimbAct t a) : a.nums = [] := by
  rcases h with ⟨_, _, _, h⟩ | ⟨_, _, h⟩ <;> exact h trivial

theorem RunG.clean {q : Phase} {ts : List Token} {as : List Act} (h : Run q ts as) : ∀ a ∈ as, a.nums = [] := by
  induction h with
  | stop | truncate => intro a ha; cases ha
  | star => intro a ha; simp only [List.mem_singleton] at ha; subst ha; rfl
  | sid _ _ ih | dct _ _ _ ih | route _ _ _ ih | climb _ _ _ ih | stay _ _ _ _ _ ih | break_ _ _ _ ih | vfr _ _ _ ih
  | word _ _ _ ih =>
    intro a ha
    rcases List.mem_cons.1 ha with rfl | ha
    · rfl
    · exact ih a ha
  | point _ _ hn _ ih | level _ _ hn _ ih =>
    intro a ha
    rcases List.mem_cons.1 ha with rfl | ha
    · exact hn trivial
    · exact ih a ha
  | cruise _ _ _ hp _ hl _ ih =>
    intro a ha
    rcases List.mem_cons.1 ha with rfl | ha
    · exact hp trivial
    · rcases List.mem_cons.1 ha with rfl | ha
      · exact hl.clean
      · exact ih a ha
  | resume _ _ _ _ hn _ ih =>
    intro a ha
    rcases List.mem_cons.1 ha with rfl | ha
    · rfl
    · rcases List.mem_cons.1 ha with rfl | ha
      · exact hn trivial
      · exact ih a ha
  | resumeIfr _ _ _ _ hn _ _ hk _ ih =>
    intro a ha
    rcases List.mem_cons.1 ha with rfl | ha
    · rfl
    · rcases List.mem_cons.1 ha with rfl | ha
      · exact hn trivial
      · rcases List.mem_cons.1 ha with rfl | ha
        · exact hk trivial
        · exact ih a ha
  | resumeVfr _ _ _ _ _ _ _ ih =>
    intro a ha
    rcases List.mem_cons.1 ha with rfl | ha
    · rfl
    · rcases List.mem_cons.1 ha with rfl | ha
      · rfl
      · rcases List.mem_cons.1 ha with rfl | ha
        · rfl
        · exact ih a ha

theorem runs_errs {as : List Act} (h : ∀ a ∈ as, a.nums = []) : ∀ (e : Ers F), (runs as e).errs = e.errs := by
  induction as with
  | nil => intro e; rfl
  | cons a as ih =>
    intro e
    rw [runs_cons, ih (fun x hx => h x (by simp [hx])), run_errs, h a (by simp)]; rfl

theorem runs_ne (as : List Act) : ∀ (e : Ers F), e.recs ≠ [] → (runs as e).recs ≠ [] := by
  induction as with
  | nil => intro e h; exact h
  | cons a as ih => intro e h; exact ih _ (a.run_ne e h)

/-! ### The newest element -/

def headSub (e : Ers F) : SubType := (e.recs.head?.map (·.sub)).getD .UNKNOWN
def headRules (e : Ers F) : Str := (e.recs.head?.map (·.rules)).getD []

theorem headSub_eq {e : Ers F} (he : e.recs ≠ []) : (e.recs.head he).sub = headSub e := by
  unfold headSub; rw [List.head?_eq_some_head he]; rfl
theorem headRules_eq {e : Ers F} (he : e.recs ≠ []) : (e.recs.head he).rules = headRules e := by
  unfold headRules; rw [List.head?_eq_some_head he]; rfl

theorem run_push {a : Act} (hr : a.records = true) {e : Ers F} (he : e.recs ≠ []) :
    (a.run e).recs.length = e.recs.length + 1 ∧ ∃ p, (a.run e).recs.head? = some (a.newRec p) := by
  obtain ⟨recs, errs, d⟩ := e
  cases recs with
  | nil => exact absurd rfl he
  | cons p rs =>
    obtain ⟨l', h, k⟩ := push_shape (F := F) a hr p rs
    have : (a.run ⟨p :: rs, errs, d⟩).recs = a.newRec p :: l' := h
    rw [this]
    exact ⟨by rw [List.length_cons, ← k.length], p, rfl⟩

theorem run_note {a : Act} (hr : a.records = false) {e : Ers F} (he : e.recs ≠ []) :
    (a.run e).recs.length = e.recs.length ∧ ∃ p, e.recs.head? = some p ∧ (a.run e).recs.head? = some (a.tweak p) := by
  obtain ⟨recs, errs, d⟩ := e
  cases recs with
  | nil => exact absurd rfl he
  | cons p rs =>
    have h : (a.run ⟨p :: rs, errs, d⟩).recs = a.tweak p :: rs := note_shape a hr p rs
    rw [h]
    exact ⟨rfl, p, rfl, rfl⟩

theorem two_push {a : Act} (hr : a.records = true) {e : Ers F} (he : e.recs ≠ []) : 2 ≤ (a.run e).recs.length := by
  rw [(run_push hr he).1]
  have := List.length_pos_iff.2 he
  omega

theorem two_note {a : Act} (hr : a.records = false) {e : Ers F} (he : e.recs ≠ []) (h : 2 ≤ e.recs.length) :
    2 ≤ (a.run e).recs.length := by rw [(run_note hr he).1]; exact h

theorem posHead_sub (t : Token) (r : Record F) : (posHead t r).sub = r.sub := by
  unfold posHead; split <;> rfl
theorem posHead_rules (t : Token) (r : Record F) : (posHead t r).rules = r.rules := by
  unfold posHead; split <;> rfl

theorem newRec_sub {a : Act} {t : Token} (h : a = .point t ∨ a = .vToI t ∨ a = .ccPoint t) (p : Record F) :
    (a.newRec p).sub = t.sub := by
  rcases h with rfl | rfl | rfl
  · show (posHead t _).sub = _
    rw [posHead_sub]; rfl
  · show (posHead t _).sub = _
    rw [posHead_sub]; rfl
  · show (posHead t _).sub = _
    rw [posHead_sub]; rfl

theorem headSub_push {a : Act} {t : Token} (h : a = .point t ∨ a = .vToI t ∨ a = .ccPoint t) {e : Ers F}
    (he : e.recs ≠ []) : headSub (a.run e) = t.sub := by
  obtain ⟨_, p, hp⟩ := run_push (a := a) (by rcases h with rfl | rfl | rfl <;> rfl) he
  unfold headSub; rw [hp]; exact newRec_sub h p

theorem headSub_note {a : Act} (hr : a.records = false) {e : Ers F} (he : e.recs ≠ []) :
    headSub (a.run e) = headSub e := by
  obtain ⟨_, p, h, hp⟩ := run_note hr he
  unfold headSub; rw [hp, h]
  have := tweak_ok a p
  unfold Tweak at this
  show (a.tweak p).sub = p.sub
  rw [this]

theorem headRules_text {t : Token} {e : Ers F} (he : e.recs ≠ []) : headRules ((Act.text t).run e) = headRules e := by
  obtain ⟨_, p, h, hp⟩ := run_note (a := .text t) rfl he
  unfold headRules; rw [hp, h]
  exact appendBreakText_rules p t.text

theorem headRules_vfr {t : Token} {e : Ers F} (he : e.recs ≠ []) : headRules ((Act.vfr t).run e) = py! "VFR" := by
  obtain ⟨_, p, hp⟩ := run_push (a := .vfr t) rfl he
  unfold headRules; rw [hp]; rfl

theorem break_sub {t : Token} (ht : Typed t) (hb : t.base = .BREAK_START) : t.sub = .OAT ∨ t.sub = .VFR ∨ t.sub = .IFPSTOP := by
  have := typed_in ht _ hb [.OAT, .VFR, .IFPSTOP] (by decide) (by decide +kernel)
  simpa using this

theorem breakEnd_sub {t : Token} (ht : Typed t) (hb : t.base = .BREAK_END) : t.sub = .IFR ∨ t.sub = .GAT ∨ t.sub = .IFPSTART := by
  have := typed_in ht _ hb [.IFR, .GAT, .IFPSTART] (by decide) (by decide +kernel)
  simpa using this

theorem headRules_brk {t : Token} (ht : Typed t) (hb : t.base = .BREAK_START) {e : Ers F} (he : e.recs ≠ []) :
    headRules ((Act.brk t).run e) = rulesOfBreak t.sub := by
  obtain ⟨_, p, hp⟩ := run_push (a := .brk t) rfl he
  unfold headRules; rw [hp]
  show (brkRules t.sub _).rules = _
  rcases break_sub ht hb with h | h | h <;> rw [h] <;> rfl

theorem isFixed_eq (t : Token) : isFixed t = isLlOrBd t.sub := by
  unfold isFixed isLlOrBd
  cases t.sub <;> rfl

theorem endsBreak_iff (t : Token) (r : Str) : endsBreak t.sub r = true ↔ closes t r := by
  unfold endsBreak closes
  simp

end F15
