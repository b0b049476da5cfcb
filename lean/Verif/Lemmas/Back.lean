import Verif.Lemmas.Accept3
/-!
# Sentences are accepted: the grammar is executed as annotated
-/

namespace F15
open Spec

set_option linter.unusedSectionVars false
variable {F : Type} [PyFloat F]

/-- With enough frames the call consumes all tokens and leaves `r`. -/
def Evs (c : Call) (e : Ers F) (ts : List Token) (r : Ers F) : Prop :=
  ∃ n, ∀ m, n ≤ m → exec m c ⟨e, ts⟩ = done r []

/-- A property of the calls that holds for enough frames. -/
theorem Evs.of {c : Call} {e : Ers F} {ts : List Token} {r : Ers F}
    (h : ∃ n, ∀ m, n ≤ m → step (exec m) c ⟨e, ts⟩ = done r []) : Evs c e ts r := by
  obtain ⟨n, h⟩ := h
  refine ⟨n + 1, fun m hm => ?_⟩
  obtain ⟨k, rfl⟩ : ∃ k, m = k + 1 := ⟨m - 1, by omega⟩
  exact h k (by omega)

theorem Evs.of1 {c c' : Call} {e e' : Ers F} {ts ts' : List Token} {r : Ers F} (h' : Evs c' e' ts' r)
    (h : ∀ call : Call → ML F Unit, step call c ⟨e, ts⟩ = call c' ⟨e', ts'⟩) : Evs c e ts r := by
  obtain ⟨n, h'⟩ := h'
  exact .of ⟨n, fun m hm => (h _).trans (h' m hm)⟩

theorem Evs.done {c : Call} {e : Ers F} {ts : List Token} {r : Ers F}
    (h : ∀ call : Call → ML F Unit, step call c ⟨e, ts⟩ = done r []) : Evs c e ts r :=
  .of ⟨0, fun _ _ => h _⟩

/-- The method that reads an item. -/
def itemCall (t : Token) : Option Call :=
  match t.base with
  | .POINT => some (.point t)
  | .ROUTE => some (.route t)
  | .DCT => some (.dct t)
  | .STAR => some (.star t)
  | .SID_STAR => some (.sidStar t)
  | .TRUNCATE => some .truncate
  | .STAY => some (.stay t)
  | .BREAK_START => some (.breakStart t)
  | .C => some (.cruiseClimbC t)
  | .SID => some (.sid t)
  | _ => none

/-- The remaining tokens are read after `q`. -/
def Goes (q : Phase) (e : Ers F) (ts : List Token) (r : Ers F) : Prop :=
  match ts with
  | [] => r = e
  | t :: ts =>
    match q with
    | .adep => Evs (.postAdep t) e ts r
    | .point _ => Evs (.postPoint t) e ts r
    | .text _ => t.base ≠ .TOO_LONG ∧ Evs (.breakTextSave t) e ts r
    | q => ∃ c, q.allows t = true ∧ itemCall t = some c ∧ Evs c e ts r

/-- The state fits the phase. -/
def Fits (q : Phase) (e : Ers F) : Prop :=
  e.recs ≠ [] ∧
  match q with
  | .adep => e.recs.length = 1
  | .point f => 2 ≤ e.recs.length ∧ isLlOrBd (headSub e) = f
  | .text r => 2 ≤ e.recs.length ∧ headRules e = r
  | _ => 2 ≤ e.recs.length

theorem go_item {q : Phase} {e : Ers F} {t : Token} {ts : List Token} {r : Ers F} {c : Call} (hf : Fits q e) (hq : q.allows t)
    (hc : itemCall t = some c) (h : Evs c e ts r) : Goes q e (t :: ts) r := by
  cases q with
  | adep =>
    refine Evs.of1 h fun call => ?_
    show postAdep call t _ = _
    unfold postAdep
    unfold itemCall at hc
    cases hb : t.base <;> rw [hb] at hc <;> simp [Phase.allows, hb] at hq <;> cases hc <;> rfl
  | point f =>
    refine Evs.of1 h fun call => ?_
    rw [step_postPoint call t e ts hf.1]
    unfold itemCall at hc
    cases hb : t.base <;> rw [hb] at hc <;> simp [Phase.allows, hb] at hq <;> cases hc <;> try rfl
    dsimp only
    rw [headSub_eq, hf.2.2, hq, if_neg (by decide)]
  | text r => cases hq
  | sid | dct | route | climb | stay => exact ⟨c, hq, hc, h⟩

/-! ### The methods -/

variable {e : Ers F} {t : Token} {ts : List Token} {r : Ers F}

theorem b_point (ht : Typed t) (he : e.recs ≠ []) (h : Goes (.point (isFixed t)) ((Act.point t).run e) ts r) : Evs (.point t) e ts r := by
  cases ts with
  | nil => obtain rfl : r = _ := h; exact .done fun call => step_point call t ht e [] he
  | cons x xs => exact .of1 h fun call => step_point call t ht e (x :: xs) he

theorem b_dct (he : e.recs ≠ []) (h : Goes .dct ((Act.plain t).run e) ts r) : Evs (.dct t) e ts r := by
  cases ts with
  | nil => obtain rfl : r = _ := h; exact .done fun call => step_dct call t e [] he
  | cons x xs =>
    obtain ⟨c, hq, hc, h⟩ := h
    refine .of1 h fun call => ?_
    rw [step_dct call t e (x :: xs) he]
    dsimp only
    unfold itemCall at hc
    cases hb : x.base <;> rw [hb] at hc <;> simp [Phase.allows, hb] at hq <;> cases hc <;> rfl

theorem b_route (he : e.recs ≠ []) (h : Goes .route ((Act.route t).run e) ts r) : Evs (.route t) e ts r := by
  cases ts with
  | nil => obtain rfl : r = _ := h; exact .done fun call => step_route call t e [] he
  | cons x xs =>
    obtain ⟨c, hq, hc, h⟩ := h
    refine .of1 h fun call => ?_
    rw [step_route call t e (x :: xs) he]
    dsimp only
    unfold itemCall at hc
    cases hb : x.base <;> rw [hb] at hc <;> simp [Phase.allows, hb] at hq <;> cases hc <;> try rfl
    dsimp only
    rw [← isFixed_eq, hq, if_neg (by decide)]

theorem b_postSid (h : Goes .sid e ts r) : Evs .postSid e ts r := by
  cases ts with
  | nil => obtain rfl : r = _ := h; exact .done fun call => step_postSid call _ []
  | cons x xs =>
    obtain ⟨c, hq, hc, h⟩ := h
    refine .of1 h fun call => ?_
    rw [step_postSid call e (x :: xs)]
    dsimp only
    unfold itemCall at hc
    cases hb : x.base <;> rw [hb] at hc <;> simp [Phase.allows, hb] at hq <;> cases hc <;> rfl

theorem b_sid (he : e.recs.length = 1) (hc : t.base = .SID ∨ t.base = .SID_STAR) (h : Goes .sid ((Act.sid t).run e) ts r) :
    ∃ c, itemCall t = some c ∧ Evs c e ts r := by
  have hne : e.recs ≠ [] := by intro h; rw [h] at he; cases he
  have := b_postSid h
  rcases hc with hb | hb
  · refine ⟨.sid t, by unfold itemCall; rw [hb], .of1 this fun call => ?_⟩
    rw [step_sid call t e ts hne, if_pos he]
  · refine ⟨.sidStar t, by unfold itemCall; rw [hb], .of1 this fun call => ?_⟩
    rw [step_sidStar call t e ts hne, if_pos he]

theorem b_climb (he : e.recs ≠ []) (h : Goes .climb ((Act.plain t).run e) ts r) : Evs (.cruiseClimbC t) e ts r := by
  cases ts with
  | nil => obtain rfl : r = _ := h; exact .done fun call => step_C call t e [] he
  | cons x xs =>
    obtain ⟨c, hq, hc, h⟩ := h
    refine .of1 h fun call => ?_
    rw [step_C call t e (x :: xs) he]
    dsimp only
    unfold itemCall at hc
    cases hb : x.base <;> rw [hb] at hc <;> simp [Phase.allows, hb] at hq <;> cases hc <;> rfl

theorem b_stayTime (ht : TimeOfDay t.text) (he : e.recs ≠ []) (h : Goes .stay ((Act.stay t).run e) ts r) : Evs (.stayTime t) e ts r := by
  cases ts with
  | nil => obtain rfl : r = _ := h; exact .done fun call => step_stayTime call t ht e [] he
  | cons x xs =>
    obtain ⟨c, hq, hc, h⟩ := h
    refine .of1 h fun call => ?_
    rw [step_stayTime call t ht e (x :: xs) he]
    dsimp only
    unfold itemCall at hc
    cases hb : x.base <;> rw [hb] at hc <;> simp [Phase.allows, hb] at hq <;> cases hc <;> rfl

theorem b_break (he : e.recs ≠ []) (h : Goes (.text (rulesOfBreak t.sub)) ((Act.brk t).run e) ts r) : Evs (.breakStart t) e ts r := by
  cases ts with
  | nil => obtain rfl : r = _ := h; exact .done fun call => step_breakStart call t e [] he
  | cons x xs =>
    obtain ⟨hb, h⟩ := h
    refine .of1 h fun call => ?_
    rw [step_breakStart call t e (x :: xs) he]
    dsimp only
    rw [if_neg hb]

theorem b_vfr (ht : Typed t) (hb : t.base = .SPEED_VFR) (he : e.recs ≠ [])
    (h : Goes (.text (py! "VFR")) ((Act.vfr t).run e) ts r) : Evs (.assignSpeedVfr t) e ts r := by
  cases ts with
  | nil => obtain rfl : r = _ := h; exact .done fun call => step_vfr call t ht hb e [] he
  | cons x xs => exact .of1 h.2 fun call => step_vfr call t ht hb e (x :: xs) he

theorem b_level (ht : Typed t) (hb : t.base = .SPEED_ALTITUDE) (he : e.recs ≠ []) (f : Bool)
    (h : Goes (if e.recs.length = 1 then .adep else .point f) ((Act.level t).run e) ts r) : Evs (.assignSpeedAltitude t) e ts r := by
  cases ts with
  | nil => obtain rfl : r = _ := h; exact .done fun call => step_level call t ht hb e [] he
  | cons x xs =>
    by_cases h1 : e.recs.length = 1
    · rw [if_pos h1] at h
      refine .of1 h fun call => ?_
      rw [step_level call t ht hb e (x :: xs) he]
      dsimp only
      rw [if_pos h1]
    · rw [if_neg h1] at h
      refine .of1 h fun call => ?_
      rw [step_level call t ht hb e (x :: xs) he]
      dsimp only
      rw [if_neg h1]

theorem b_climbAct {k : Prop} {a : Act} (ht : Typed t) (he : e.recs ≠ []) (hc : ClimbActG k t a) (f : Bool)
    (h : Goes (.point f) (a.run e) ts r) :
    ∃ c, (c = .assignSpeedAltitudeAltitude t ∧ t.base = .SPEED_ALTITUDE_ALTITUDE ∨
      c = .assignSpeedAltitudePlus t ∧ t.base = .SPEED_ALTITUDE_PLUS) ∧ Evs c e ts r := by
  rcases hc with ⟨hb, hbad, rfl, _⟩ | ⟨hb, rfl, _⟩
  · refine ⟨_, .inl ⟨rfl, hb⟩, ?_⟩
    cases ts with
    | nil => obtain rfl : r = _ := h; exact .done fun call => step_levels call t ht hb hbad e [] he
    | cons x xs => exact .of1 h fun call => step_levels call t ht hb hbad e (x :: xs) he
  · refine ⟨_, .inr ⟨rfl, hb⟩, ?_⟩
    cases ts with
    | nil => obtain rfl : r = _ := h; exact .done fun call => step_plus call t ht hb e [] he
    | cons x xs => exact .of1 h fun call => step_plus call t ht hb e (x :: xs) he

/-- A call that consumes everything followed by a continuation. -/
theorem Evs.andThen {c : Call} {k : (Call → ML F Unit) → Ers F → List Token → Res F} (h : Evs c e ts r)
    (hk : ∀ call, k call r [] = F15.done r []) :
    ∃ n, ∀ m, n ≤ m → F15.andThen (exec m c ⟨e, ts⟩) (k (exec m)) = F15.done r [] := by
  obtain ⟨n, h⟩ := h
  refine ⟨n, fun m hm => ?_⟩
  rw [h m hm]; exact hk _

theorem b_cruise {k : Prop} {s p s' l : Token} {a : Act} (hp : Typed p) (hl : Typed l) (he : e.recs ≠ []) (hs : s.base = .SLASH)
    (hs' : s'.base = .SLASH) (hc : ClimbActG k l a) (h : Goes (.point (isFixed p)) (a.run ((Act.ccPoint p).run e)) ts r) :
    Evs (.cruiseClimbC t) e (s :: p :: s' :: l :: ts) r := by
  obtain ⟨c, hc', hev⟩ := b_climbAct hl (Act.run_ne _ _ he) hc _ h
  have : Evs (.cruiseClimbPoint p) e (s' :: l :: ts) r := by
    obtain ⟨n, hn⟩ := hev.andThen (k := endTail) fun call => rfl
    refine .of ⟨n, fun m hm => ?_⟩
    rw [step_ccPoint _ p hp e _ he]
    dsimp only
    rw [if_neg (by rw [hs']; decide)]
    rcases hc' with ⟨rfl, hb⟩ | ⟨rfl, hb⟩
    · rw [if_pos hb]; exact hn m hm
    · rw [if_neg (by rw [hb]; decide), if_pos hb]; exact hn m hm
  refine .of1 this fun call => ?_
  rw [step_C call t e _ he]
  dsimp only
  rw [hs]

/-! ### The induction -/

theorem fits_push {a : Act} {t : Token} (h : a = .point t ∨ a = .vToI t ∨ a = .ccPoint t) (he : e.recs ≠ []) :
    Fits (.point (isFixed t)) (a.run e) :=
  ⟨a.run_ne _ he, two_push (by rcases h with rfl | rfl | rfl <;> rfl) he, by rw [headSub_push h he, isFixed_eq]⟩

theorem fits_note {a : Act} {f : Bool} (hr : a.records = false) (h : Fits (.point f) e) : Fits (.point f) (a.run e) :=
  ⟨a.run_ne _ h.1, two_note hr h.1 h.2.1, by rw [headSub_note hr h.1, h.2.2]⟩

theorem fits_two {a : Act} {q : Phase} (hr : a.records = true) (he : e.recs ≠ []) (hq : q = .sid ∨ q = .dct ∨ q = .route ∨ q = .climb) :
    Fits q (a.run e) := by
  have := two_push hr he
  refine ⟨a.run_ne _ he, ?_⟩
  rcases hq with rfl | rfl | rfl | rfl <;> exact this

theorem Fits.two {q : Phase} (h : Fits q e) (hq : q ≠ .adep) : 2 ≤ e.recs.length := by
  cases q with
  | adep => exact absurd rfl hq
  | point f | text r => exact h.2.1
  | _ => exact h.2

theorem climb_note {k : Prop} {a : Act} (h : ClimbActG k t a) : a.records = false := by
  rcases h with ⟨_, _, rfl, _⟩ | ⟨_, rfl, _⟩ <;> rfl

/-- `readOn`: the closing word is taken as text. -/
theorem b_readOn (h : readOn t ts) : ∀ m, exec (m + 1) (.breakEnd t) ⟨e, ts⟩ = done e ts := by
  intro m
  show step (exec m) (.breakEnd t) ⟨e, ts⟩ = _
  rw [step_breakEnd]
  cases ts with
  | nil => rfl
  | cons p ts =>
    dsimp only
    rcases h with h | ⟨h, s, rest, rfl, hs⟩
    · rw [if_pos h]
    · split
      · rfl
      · dsimp only
        rw [if_pos hs]

theorem b_text (he : e.recs ≠ []) (hb : t.base ≠ .TOO_LONG) (hc : closes t (headRules e))
    (h : Evs (.breakEnd t) ((Act.text t).run e) ts r) : Evs (.breakTextSave t) e ts r := by
  obtain ⟨n, hn⟩ := h.andThen (k := textTail) fun call => rfl
  refine .of ⟨n, fun m hm => ?_⟩
  rw [step_text _ t e ts he hb]
  unfold textBody
  rw [headRules_eq, if_pos ((endsBreak_iff t _).2 hc)]
  exact hn m hm

theorem bwd {k : Prop} {q : Phase} {ts : List Token} {as : List Act} (h : RunG k q ts as) (hT : ∀ t ∈ ts, Typed t) :
    ∀ e : Ers F, Fits q e → Goes q e ts (runs as e) := by
  induction h with
  | stop => intro e _; rfl
  | truncate hq hb =>
    intro e hf
    exact go_item hf hq (by unfold itemCall; rw [hb]) (.done fun call => step_truncate call e [])
  | star hq hb =>
    rename_i q t
    intro e hf
    rcases hb with hb | ⟨hb, hne⟩
    · exact go_item hf hq (by unfold itemCall; rw [hb]) (.done fun call => step_star call t e [] hf.1)
    · refine go_item hf hq (by unfold itemCall; rw [hb]) (.done fun call => ?_)
      have := hf.two hne
      rw [step_sidStar call t e [] hf.1, if_neg (by omega)]
      rfl
  | sid hb hr ih =>
    rename_i t ts as
    intro e hf
    obtain ⟨c, hc, hev⟩ := b_sid hf.2 hb (ih (fun x hx => hT x (by simp [hx])) _ (fits_two rfl hf.1 (.inl rfl)))
    exact go_item hf (by rcases hb with hb | hb <;> simp [Phase.allows, hb]) hc hev
  | dct hq hb hr ih =>
    intro e hf
    exact go_item hf hq (by unfold itemCall; rw [hb])
      (b_dct hf.1 (ih (fun x hx => hT x (by simp [hx])) _ (fits_two rfl hf.1 (.inr (.inl rfl)))))
  | route hq hb hr ih =>
    intro e hf
    exact go_item hf hq (by unfold itemCall; rw [hb])
      (b_route hf.1 (ih (fun x hx => hT x (by simp [hx])) _ (fits_two rfl hf.1 (.inr (.inr (.inl rfl))))))
  | point hq hb hn hr ih =>
    intro e hf
    exact go_item hf hq (by unfold itemCall; rw [hb])
      (b_point (hT _ (by simp)) hf.1 (ih (fun x hx => hT x (by simp [hx])) _ (fits_push (.inl rfl) hf.1)))
  | climb hq hb hr ih =>
    intro e hf
    exact go_item hf hq (by unfold itemCall; rw [hb])
      (b_climb hf.1 (ih (fun x hx => hT x (by simp [hx])) _ (fits_two rfl hf.1 (.inr (.inr (.inr rfl))))))
  | cruise hq hb hs hp hs' hl hr ih =>
    intro e hf
    exact go_item hf hq (by unfold itemCall; rw [hb])
      (b_cruise (hT _ (by simp)) (hT _ (by simp)) hf.1 hs hs' hl
        (ih (fun x hx => hT x (by simp [hx])) _ (fits_note (climb_note hl) (fits_push (.inr (.inr rfl)) hf.1))))
  | stay hq hb hs hm hr ih =>
    rename_i q t s m ts as
    intro e hf
    have h2 := hf.two (fun h => by rw [h] at hq; simp [Phase.allows, hb] at hq)
    refine go_item hf hq (by unfold itemCall; rw [hb]) (.of1 (b_stayTime (stay_facts (hT m (by simp)) hm) hf.1
      (ih (fun x hx => hT x (by simp [hx])) _ ⟨Act.run_ne _ _ hf.1, two_note rfl hf.1 h2⟩)) fun call => ?_)
    rw [step_stay]
    dsimp only
    rw [if_neg (by rw [hs]; decide), if_neg (by rw [hm]; decide)]
  | break_ hq hb hr ih =>
    intro e hf
    exact go_item hf hq (by unfold itemCall; rw [hb])
      (b_break hf.1 (ih (fun x hx => hT x (by simp [hx])) _
        ⟨Act.run_ne _ _ hf.1, two_push rfl hf.1, headRules_brk (hT _ (by simp)) hb hf.1⟩))
  | level hs hb hl hr ih =>
    rename_i f s l ts as
    intro e hf
    have h2 := hf.2.1
    have := b_level (hT l (by simp)) hb hf.1 f (by
      rw [if_neg (by omega)]; exact ih (fun x hx => hT x (by simp [hx])) _ (fits_note rfl hf))
    have : Evs (.forwardSlash s) e (l :: ts) (runs as ((Act.level l).run e)) := .of1 this fun call => by
      rw [step_slash]; dsimp only; rw [hb]
    exact .of1 this fun call => by rw [step_postPoint call s e _ hf.1, hs]
  | vfr hs hb hr ih =>
    rename_i f s l ts as
    intro e hf
    have := b_vfr (hT l (by simp)) hb hf.1 (ih (fun x hx => hT x (by simp [hx])) _
      ⟨Act.run_ne _ _ hf.1, two_push rfl hf.1, headRules_vfr hf.1⟩)
    have : Evs (.forwardSlash s) e (l :: ts) (runs as ((Act.vfr l).run e)) := .of1 this fun call => by
      rw [step_slash]; dsimp only; rw [hb]
    exact .of1 this fun call => by rw [step_postPoint call s e _ hf.1, hs]
  | word hb hc hr ih =>
    rename_i r t ts as
    intro e hf
    have ih := ih (fun x hx => hT x (by simp [hx])) ((Act.text t).run e)
      ⟨Act.run_ne _ _ hf.1, two_note rfl hf.1 hf.2.1, (headRules_text hf.1).trans hf.2.2⟩
    refine ⟨hb, ?_⟩
    have : ∃ n, ∀ m, n ≤ m → textTail (exec m) ((Act.text t).run e) ts = done (runs (.text t :: as) e) [] := by
      cases ts with
      | nil => exact ⟨0, fun m _ => by rw [runs_cons, show runs as _ = _ from ih]; rfl⟩
      | cons x xs => exact ih.2
    obtain ⟨n, hn⟩ := this
    by_cases hcl : closes t r
    · refine .of ⟨n + 1, fun m hm => ?_⟩
      rw [step_text _ t e ts hf.1 hb]
      unfold textBody
      rw [headRules_eq, hf.2.2, if_pos ((endsBreak_iff t _).2 hcl)]
      obtain ⟨k, rfl⟩ : ∃ k, m = k + 1 := ⟨m - 1, by omega⟩
      rw [b_readOn (hc hcl) k]
      exact hn (k + 1) (by omega)
    · refine .of ⟨n, fun m hm => ?_⟩
      rw [step_text _ t e ts hf.1 hb]
      unfold textBody
      rw [headRules_eq, hf.2.2, if_neg (fun h => hcl ((endsBreak_iff t _).1 h))]
      exact hn m hm
  | resume hc hi hb hp hn hr ih =>
    rename_i r t p ts as
    intro e hf
    have he' := Act.run_ne (.text t) e hf.1
    have := b_point (hT p (by simp)) he' (ih (fun x hx => hT x (by simp [hx])) _ (fits_push (.inl rfl) he'))
    refine ⟨hb, b_text hf.1 hb (by rw [hf.2.2]; exact hc) (.of1 this fun call => ?_)⟩
    rw [step_breakEnd]
    dsimp only
    rw [if_neg (by rw [hp]; decide), if_neg hi]
  | resumeIfr hc hi hb hp hn hs hl hk hr ih =>
    rename_i r t p s l ts as
    intro e hf
    have he' := Act.run_ne (.text t) e hf.1
    have h1 := b_level (e := (Act.vToI p).run ((Act.text t).run e)) (hT l (by simp)) hl (Act.run_ne _ _ he') (isFixed p) (by
      have := two_push (a := .vToI p) rfl he'
      rw [if_neg (by omega)]
      exact ih (fun x hx => hT x (by simp [hx])) _ (fits_note rfl (fits_push (.inr (.inl rfl)) he')))
    have h2 : Evs .vToI ((Act.text t).run e) (p :: s :: l :: ts) _ :=
      .of1 h1 fun call => step_vToI call p s l (hT p (by simp)) _ ts he'
    obtain ⟨n, hn⟩ := h2.andThen (k := endTail) fun call => rfl
    refine ⟨hb, b_text hf.1 hb (by rw [hf.2.2]; exact hc) (.of ⟨n, fun m hm => ?_⟩)⟩
    rw [step_breakEnd]
    dsimp only
    rw [if_neg (by rw [hp]; decide), if_pos hi, if_neg (by rw [hs]; decide), if_pos hl]
    exact hn m hm
  | resumeVfr hc hi hb hp hs hl hr ih =>
    rename_i r t p s l ts as
    intro e hf
    have he' := Act.run_ne (.text t) e hf.1
    have he2 := Act.run_ne (.vToIToV p) _ he'
    have h1 := b_vfr (e := (Act.vToIToV p).run ((Act.text t).run e)) (hT l (by simp)) hl he2
      (ih (fun x hx => hT x (by simp [hx])) _ ⟨Act.run_ne _ _ he2, two_push rfl he2, headRules_vfr he2⟩)
    have h2 : Evs .vToIToV ((Act.text t).run e) (p :: s :: l :: ts) _ :=
      .of1 h1 fun call => step_vToIToV call p s l _ ts he'
    obtain ⟨n, hn⟩ := h2.andThen (k := endTail) fun call => rfl
    refine ⟨hb, b_text hf.1 hb (by rw [hf.2.2]; exact hc) (.of ⟨n, fun m hm => ?_⟩)⟩
    rw [step_breakEnd]
    dsimp only
    rw [if_neg (by rw [hp]; decide), if_pos hi, if_neg (by rw [hs]; decide), if_neg (by rw [hl]; decide), if_pos hl]
    exact hn m hm

end F15
