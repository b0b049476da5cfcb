import Verif.Lemmas.Sentence
import Verif.Spec.Faults
/-!
# Stray words between the items

`RunTo`: the annotated grammar, with the phase in which it ends. `Chain`: a sentence cut at places between two items.
`noise`: with a stray word at every cut, the parser adds one error for each and does the same otherwise.
-/

namespace F15
open Spec

set_option linter.unusedSectionVars false
variable {F : Type} [PyFloat F] {c : Prop}

/-- `Run`, up to a phase; `none` after a final `T` or STAR. -/
inductive RunToG (c : Prop) : Phase → List Token → List Act → Option Phase → Prop
  | here (q : Phase) : RunToG c q [] [] (some q)
  | truncate {q t} (hq : q.allows t) (hb : t.base = .TRUNCATE) : RunToG c q [t] [] none
  | star {q t} (hq : q.allows t) (hb : t.base = .STAR ∨ (t.base = .SID_STAR ∧ q ≠ .adep)) : RunToG c q [t] [.star t] none
  | sid {t ts as z} (hb : t.base = .SID ∨ t.base = .SID_STAR) (h : RunToG c .sid ts as z) : RunToG c .adep (t :: ts) (.sid t :: as) z
  | dct {q t ts as z} (hq : q.allows t) (hb : t.base = .DCT) (h : RunToG c .dct ts as z) : RunToG c q (t :: ts) (.plain t :: as) z
  | route {q t ts as z} (hq : q.allows t) (hb : t.base = .ROUTE) (h : RunToG c .route ts as z) : RunToG c q (t :: ts) (.route t :: as) z
  | point {q t ts as z} (hq : q.allows t) (hb : t.base = .POINT) (hn : c → (Act.point t).nums = [])
      (h : RunToG c (.point (isFixed t)) ts as z) : RunToG c q (t :: ts) (.point t :: as) z
  | climb {q t ts as z} (hq : q.allows t) (hb : t.base = .C) (h : RunToG c .climb ts as z) : RunToG c q (t :: ts) (.plain t :: as) z
  | cruise {q t s p s' l a ts as z} (hq : q.allows t) (hb : t.base = .C) (hs : s.base = .SLASH)
      (hp : c → (Act.ccPoint p).nums = []) (hs' : s'.base = .SLASH) (hl : ClimbActG c l a)
      (h : RunToG c (.point (isFixed p)) ts as z) :
      RunToG c q (t :: s :: p :: s' :: l :: ts) (.ccPoint p :: a :: as) z
  | stay {q t s m ts as z} (hq : q.allows t) (hb : t.base = .STAY) (hs : s.base = .SLASH) (hm : m.base = .STAY_TIME)
      (h : RunToG c .stay ts as z) : RunToG c q (t :: s :: m :: ts) (.stay m :: as) z
  | break_ {q t ts as z} (hq : q.allows t) (hb : t.base = .BREAK_START) (h : RunToG c (.text (rulesOfBreak t.sub)) ts as z) :
      RunToG c q (t :: ts) (.brk t :: as) z
  | level {f s l ts as z} (hs : s.base = .SLASH) (hb : l.base = .SPEED_ALTITUDE) (hl : c → (Act.level l).nums = [])
      (h : RunToG c (.point f) ts as z) : RunToG c (.point f) (s :: l :: ts) (.level l :: as) z
  | vfr {f s l ts as z} (hs : s.base = .SLASH) (hb : l.base = .SPEED_VFR) (h : RunToG c (.text (py! "VFR")) ts as z) :
      RunToG c (.point f) (s :: l :: ts) (.vfr l :: as) z
  | word {r t ts as z} (hb : t.base ≠ .TOO_LONG) (hc : closes t r → readOn t ts) (h : RunToG c (.text r) ts as z) :
      RunToG c (.text r) (t :: ts) (.text t :: as) z
  | resume {r t p ts as z} (hc : closes t r) (hi : t.sub ≠ .IFR) (hb : t.base ≠ .TOO_LONG) (hp : p.base = .POINT)
      (hn : c → (Act.point p).nums = []) (h : RunToG c (.point (isFixed p)) ts as z) :
      RunToG c (.text r) (t :: p :: ts) (.text t :: .point p :: as) z
  | resumeIfr {r t p s l ts as z} (hc : closes t r) (hi : t.sub = .IFR) (hb : t.base ≠ .TOO_LONG) (hp : p.base = .POINT)
      (hn : c → (Act.vToI p).nums = []) (hs : s.base = .SLASH) (hl : l.base = .SPEED_ALTITUDE) (hk : c → (Act.level l).nums = [])
      (h : RunToG c (.point (isFixed p)) ts as z) :
      RunToG c (.text r) (t :: p :: s :: l :: ts) (.text t :: .vToI p :: .level l :: as) z
  | resumeVfr {r t p s l ts as z} (hc : closes t r) (hi : t.sub = .IFR) (hb : t.base ≠ .TOO_LONG) (hp : p.base = .POINT)
      (hs : s.base = .SLASH) (hl : l.base = .SPEED_VFR) (h : RunToG c (.text (py! "VFR")) ts as z) :
      RunToG c (.text r) (t :: p :: s :: l :: ts) (.text t :: .vToIToV p :: .vfr l :: as) z

/-- Without wrong numbers. -/
abbrev RunTo (q : Phase) (ts : List Token) (as : List Act) (z : Option Phase) : Prop := RunToG True q ts as z

theorem RunG.to {q : Phase} {ts : List Token} {as : List Act} (h : RunG c q ts as) : ∃ z, RunToG c q ts as z := by
  induction h with
  | stop q => exact ⟨_, .here q⟩
  | truncate hq hb => exact ⟨_, .truncate hq hb⟩
  | star hq hb => exact ⟨_, .star hq hb⟩
  | sid hb _ ih => obtain ⟨z, ih⟩ := ih; exact ⟨z, .sid hb ih⟩
  | dct hq hb _ ih => obtain ⟨z, ih⟩ := ih; exact ⟨z, .dct hq hb ih⟩
  | route hq hb _ ih => obtain ⟨z, ih⟩ := ih; exact ⟨z, .route hq hb ih⟩
  | point hq hb hn _ ih => obtain ⟨z, ih⟩ := ih; exact ⟨z, .point hq hb hn ih⟩
  | climb hq hb _ ih => obtain ⟨z, ih⟩ := ih; exact ⟨z, .climb hq hb ih⟩
  | cruise hq hb hs hp hs' hl _ ih => obtain ⟨z, ih⟩ := ih; exact ⟨z, .cruise hq hb hs hp hs' hl ih⟩
  | stay hq hb hs hm _ ih => obtain ⟨z, ih⟩ := ih; exact ⟨z, .stay hq hb hs hm ih⟩
  | break_ hq hb _ ih => obtain ⟨z, ih⟩ := ih; exact ⟨z, .break_ hq hb ih⟩
  | level hs hb hl _ ih => obtain ⟨z, ih⟩ := ih; exact ⟨z, .level hs hb hl ih⟩
  | vfr hs hb _ ih => obtain ⟨z, ih⟩ := ih; exact ⟨z, .vfr hs hb ih⟩
  | word hb hc _ ih => obtain ⟨z, ih⟩ := ih; exact ⟨z, .word hb hc ih⟩
  | resume hc hi hb hp hn _ ih => obtain ⟨z, ih⟩ := ih; exact ⟨z, .resume hc hi hb hp hn ih⟩
  | resumeIfr hc hi hb hp hn hs hl hk _ ih => obtain ⟨z, ih⟩ := ih; exact ⟨z, .resumeIfr hc hi hb hp hn hs hl hk ih⟩
  | resumeVfr hc hi hb hp hs hl _ ih => obtain ⟨z, ih⟩ := ih; exact ⟨z, .resumeVfr hc hi hb hp hs hl ih⟩

theorem RunToG.run {q : Phase} {ts : List Token} {as : List Act} {z : Option Phase} (h : RunToG c q ts as z) : RunG c q ts as := by
  induction h with
  | here q => exact .stop q
  | truncate hq hb => exact .truncate hq hb
  | star hq hb => exact .star hq hb
  | sid hb _ ih => exact .sid hb ih
  | dct hq hb _ ih => exact .dct hq hb ih
  | route hq hb _ ih => exact .route hq hb ih
  | point hq hb hn _ ih => exact .point hq hb hn ih
  | climb hq hb _ ih => exact .climb hq hb ih
  | cruise hq hb hs hp hs' hl _ ih => exact .cruise hq hb hs hp hs' hl ih
  | stay hq hb hs hm _ ih => exact .stay hq hb hs hm ih
  | break_ hq hb _ ih => exact .break_ hq hb ih
  | level hs hb hl _ ih => exact .level hs hb hl ih
  | vfr hs hb _ ih => exact .vfr hs hb ih
  | word hb hc _ ih => exact .word hb hc ih
  | resume hc hi hb hp hn _ ih => exact .resume hc hi hb hp hn ih
  | resumeIfr hc hi hb hp hn hs hl hk _ ih => exact .resumeIfr hc hi hb hp hn hs hl hk ih
  | resumeVfr hc hi hb hp hs hl _ ih => exact .resumeVfr hc hi hb hp hs hl ih

theorem no_slash {q : Phase} {t : Token} (hb : t.base = .SLASH) : q.allows t = false := by
  cases q <;> simp [Phase.allows, hb]

theorem no_climb_slash_to {s : Token} {ts : List Token} {as : List Act} {z : Option Phase} (hs : s.base = .SLASH)
    (h : RunToG c .climb (s :: ts) as z) : False := by
  cases h <;> simp_all [Phase.allows]

theorem climbAct_inj {l : Token} {a b : Act} (h : ClimbActG c l a) (h' : ClimbActG c l b) : a = b := by
  rcases h with ⟨h1, _, rfl, _⟩ | ⟨h1, rfl, _⟩ <;> rcases h' with ⟨h2, _, rfl, _⟩ | ⟨h2, rfl, _⟩
  · rfl
  · rw [h1] at h2; cases h2
  · rw [h1] at h2; cases h2
  · rfl

/-- A place between two items. -/
def Open : Option Phase → Prop
  | some (.text _) | some .climb => False
  | _ => True

set_option hygiene false in
local macro "clash" : tactic => `(tactic| (exfalso; clear hz; simp_all [Phase.allows]))

/-- The rest of a reading. -/
def Rest (c : Prop) (z : Option Phase) (v : List Token) (cs : List Act) (z' : Option Phase) : Prop :=
  match z with
  | some p => RunToG c p v cs z'
  | none => v = [] ∧ cs = [] ∧ z' = none

/-- A place between two items, or after a word that is neither `C` nor ends free text. -/
def Firm (u : List Token) (z : Option Phase) : Prop :=
  Open z ∨ ∀ o, u.getLast? = some o → o.base ≠ .C ∧ ∀ r, ¬ closes o r

theorem Firm.tail {x : Token} {u : List Token} {z : Option Phase} (h : Firm (x :: u) z) : Firm u z := by
  rcases h with h | h
  · exact .inl h
  · refine .inr fun o ho => h o ?_
    cases u with
    | nil => cases ho
    | cons y ys => rw [List.getLast?_cons_cons]; exact ho

/-- What has been read is a beginning of what is read of more tokens. -/
theorem RunToG.extend' {q : Phase} {u : List Token} {as : List Act} {z : Option Phase} (h : RunToG c q u as z) (hz : Firm u z) :
    ∀ {v w : List Token} {bs : List Act} {z' : Option Phase}, RunToG c q w bs z' → w = u ++ v →
      ∃ cs, bs = as ++ cs ∧ Rest c z v cs z' := by
  induction h with
  | here q => intro v w bs z' h hw; subst hw; exact ⟨bs, rfl, h⟩
  | truncate hq hb =>
    intro v w bs z' h hw
    cases h
    case truncate => exact ⟨[], rfl, by clear hz; simp_all, rfl, rfl⟩
    all_goals clash
  | star hq hb =>
    intro v w bs z' h hw
    cases h
    case star => simp only [List.cons_append, List.nil_append, List.cons.injEq] at hw; obtain ⟨rfl, rfl⟩ := hw; exact ⟨[], rfl, rfl, rfl, rfl⟩
    all_goals clash
  | sid hb _ ih =>
    intro v w bs z' h hw
    cases h
    case sid =>
      simp only [List.cons_append, List.cons.injEq] at hw
      obtain ⟨rfl, rfl⟩ := hw
      obtain ⟨cs, rfl, h⟩ := ih hz.tail (by assumption) rfl
      exact ⟨cs, rfl, h⟩
    all_goals clash
  | dct hq hb _ ih =>
    intro v w bs z' h hw
    cases h
    case dct =>
      simp only [List.cons_append, List.cons.injEq] at hw
      obtain ⟨rfl, rfl⟩ := hw
      obtain ⟨cs, rfl, h⟩ := ih hz.tail (by assumption) rfl
      exact ⟨cs, rfl, h⟩
    all_goals clash
  | route hq hb _ ih =>
    intro v w bs z' h hw
    cases h
    case route =>
      simp only [List.cons_append, List.cons.injEq] at hw
      obtain ⟨rfl, rfl⟩ := hw
      obtain ⟨cs, rfl, h⟩ := ih hz.tail (by assumption) rfl
      exact ⟨cs, rfl, h⟩
    all_goals clash
  | break_ hq hb _ ih =>
    intro v w bs z' h hw
    cases h
    case break_ =>
      simp only [List.cons_append, List.cons.injEq] at hw
      obtain ⟨rfl, rfl⟩ := hw
      obtain ⟨cs, rfl, h⟩ := ih hz.tail (by assumption) rfl
      exact ⟨cs, rfl, h⟩
    all_goals clash
  | point hq hb hn _ ih =>
    intro v w bs z' h hw
    cases h
    case point =>
      simp only [List.cons_append, List.cons.injEq] at hw
      obtain ⟨rfl, rfl⟩ := hw
      obtain ⟨cs, rfl, h⟩ := ih hz.tail (by assumption) rfl
      exact ⟨cs, rfl, h⟩
    all_goals clash
  | climb hq hb h0 ih =>
    rename_i q t ts as z
    intro v w bs z' h hw
    cases ts with
    | nil =>
      cases h0
      rcases hz with hz | hz
      · exact hz.elim
      · exact absurd hb (hz _ rfl).1
    | cons x xs =>
      cases h
      case climb =>
        simp only [List.cons_append, List.cons.injEq] at hw
        obtain ⟨rfl, rfl⟩ := hw
        obtain ⟨cs, rfl, h⟩ := ih hz.tail (by assumption) rfl
        exact ⟨cs, rfl, h⟩
      case cruise hs _ _ _ _ _ =>
        simp only [List.cons_append, List.cons.injEq] at hw
        obtain ⟨rfl, rfl, hw⟩ := hw
        exact (no_climb_slash_to (by assumption) h0).elim
      all_goals clash
  | cruise hq hb hs hp hs' hl _ ih =>
    intro v w bs z' h hw
    cases h
    case climb h' =>
      simp only [List.cons_append, List.cons.injEq] at hw
      obtain ⟨rfl, rfl⟩ := hw
      exact (no_climb_slash_to hs (by assumption)).elim
    case cruise =>
      simp only [List.cons_append, List.cons.injEq] at hw
      obtain ⟨rfl, rfl, rfl, rfl, rfl, rfl⟩ := hw
      obtain ⟨cs, rfl, h⟩ := ih hz.tail.tail.tail.tail.tail (by assumption) rfl
      have hj := fun b (h : ClimbActG c _ b) => climbAct_inj hl h
      clear hl
      obtain rfl := hj _ (by assumption)
      exact ⟨cs, rfl, h⟩
    all_goals clash
  | stay hq hb hs hm _ ih =>
    intro v w bs z' h hw
    cases h
    case stay =>
      simp only [List.cons_append, List.cons.injEq] at hw
      obtain ⟨rfl, rfl, rfl, rfl⟩ := hw
      obtain ⟨cs, rfl, h⟩ := ih hz.tail.tail.tail (by assumption) rfl
      exact ⟨cs, rfl, h⟩
    all_goals clash
  | level hs hb hl _ ih =>
    intro v w bs z' h hw
    cases h
    case level =>
      simp only [List.cons_append, List.cons.injEq] at hw
      obtain ⟨rfl, rfl, rfl⟩ := hw
      obtain ⟨cs, rfl, h⟩ := ih hz.tail.tail (by assumption) rfl
      exact ⟨cs, rfl, h⟩
    all_goals clash
  | vfr hs hb _ ih =>
    intro v w bs z' h hw
    cases h
    case vfr =>
      simp only [List.cons_append, List.cons.injEq] at hw
      obtain ⟨rfl, rfl, rfl⟩ := hw
      obtain ⟨cs, rfl, h⟩ := ih hz.tail.tail (by assumption) rfl
      exact ⟨cs, rfl, h⟩
    all_goals clash
  | word hb hc h0 ih =>
    rename_i r t ts as z
    intro v w bs z' h hw
    have hne : ts = [] → ¬ closes t r := by
      rintro rfl
      cases h0
      rcases hz with hz | hz
      · exact hz.elim
      · exact (hz _ rfl).2 r
    cases h
    case word =>
      simp only [List.cons_append, List.cons.injEq] at hw
      obtain ⟨rfl, rfl⟩ := hw
      obtain ⟨cs, rfl, h⟩ := ih hz.tail (by assumption) rfl
      exact ⟨cs, rfl, h⟩
    case resume h1 h2 h3 h4 h5 h6 =>
      simp only [List.cons_append, List.cons.injEq] at hw
      obtain ⟨rfl, hw⟩ := hw
      cases ts with
      | nil => exact absurd (by assumption) (hne rfl)
      | cons x xs =>
      simp only [List.cons_append, List.cons.injEq] at hw
      obtain ⟨rfl, rfl⟩ := hw
      rcases hc (by assumption) with h | ⟨h, _⟩
      · exact absurd (by assumption) h
      · exact absurd h (by assumption)
    case resumeIfr =>
      simp only [List.cons_append, List.cons.injEq] at hw
      obtain ⟨rfl, hw⟩ := hw
      cases ts with
      | nil => exact absurd (by assumption) (hne rfl)
      | cons x xs =>
      simp only [List.cons_append, List.cons.injEq] at hw
      obtain ⟨rfl, hw⟩ := hw
      rcases hc (by assumption) with h | ⟨_, s, rest, rfl, h⟩
      · exact absurd (by assumption) h
      · simp only [List.cons_append, List.cons.injEq] at hw
        obtain ⟨rfl, hw⟩ := hw
        exact absurd (by assumption) h
    case resumeVfr =>
      simp only [List.cons_append, List.cons.injEq] at hw
      obtain ⟨rfl, hw⟩ := hw
      cases ts with
      | nil => exact absurd (by assumption) (hne rfl)
      | cons x xs =>
      simp only [List.cons_append, List.cons.injEq] at hw
      obtain ⟨rfl, hw⟩ := hw
      rcases hc (by assumption) with h | ⟨_, s, rest, rfl, h⟩
      · exact absurd (by assumption) h
      · simp only [List.cons_append, List.cons.injEq] at hw
        obtain ⟨rfl, hw⟩ := hw
        exact absurd (by assumption) h
    all_goals clash
  | resume hc hi hb hp hn _ ih =>
    intro v w bs z' h hw
    cases h
    case resume =>
      simp only [List.cons_append, List.cons.injEq] at hw
      obtain ⟨rfl, rfl, rfl⟩ := hw
      obtain ⟨cs, rfl, h⟩ := ih hz.tail.tail (by assumption) rfl
      exact ⟨cs, rfl, h⟩
    case word h1 h2 h3 =>
      simp only [List.cons_append, List.cons.injEq] at hw
      obtain ⟨rfl, rfl⟩ := hw
      rcases h2 hc with h | ⟨h, s', r', h', h''⟩
      · exact absurd hp h
      · simp_all
    all_goals clash
  | resumeIfr hc hi hb hp hn hs hl hk _ ih =>
    intro v w bs z' h hw
    cases h
    case resumeIfr =>
      simp only [List.cons_append, List.cons.injEq] at hw
      obtain ⟨rfl, rfl, rfl, rfl, rfl⟩ := hw
      obtain ⟨cs, rfl, h⟩ := ih hz.tail.tail.tail.tail (by assumption) rfl
      exact ⟨cs, rfl, h⟩
    case word h1 h2 h3 =>
      simp only [List.cons_append, List.cons.injEq] at hw
      obtain ⟨rfl, rfl⟩ := hw
      rcases h2 hc with h | ⟨h, s', r', h', h''⟩
      · exact absurd hp h
      · simp_all
    all_goals clash
  | resumeVfr hc hi hb hp hs hl _ ih =>
    intro v w bs z' h hw
    cases h
    case resumeVfr =>
      simp only [List.cons_append, List.cons.injEq] at hw
      obtain ⟨rfl, rfl, rfl, rfl, rfl⟩ := hw
      obtain ⟨cs, rfl, h⟩ := ih hz.tail.tail.tail.tail (by assumption) rfl
      exact ⟨cs, rfl, h⟩
    case word h1 h2 h3 =>
      simp only [List.cons_append, List.cons.injEq] at hw
      obtain ⟨rfl, rfl⟩ := hw
      rcases h2 hc with h | ⟨h, s', r', h', h''⟩
      · exact absurd hp h
      · simp_all
    all_goals clash

theorem RunToG.extend {q : Phase} {u : List Token} {as : List Act} {z : Option Phase} (h : RunToG c q u as z) (hz : Open z)
    {v w : List Token} {bs : List Act} {z' : Option Phase} (h' : RunToG c q w bs z') (hw : w = u ++ v) :
    ∃ cs, bs = as ++ cs ∧ Rest c z v cs z' := h.extend' (.inl hz) h' hw

end F15
