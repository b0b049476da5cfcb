import Verif.Lemmas.Noise
/-!
# Stray words between the items: what the parser does
-/

namespace F15
open Spec

set_option linter.unusedSectionVars false
variable {F : Type} [PyFloat F] {c : Prop}

/-- Types of tokens that cannot start an item. -/
def strayBase (b : BaseType) : Bool :=
  [BaseType.UNKNOWN, .TOO_LONG, .STAY_TIME, .SPEED_ALTITUDE, .SPEED_VFR, .SPEED_ALTITUDE_ALTITUDE, .SPEED_ALTITUDE_PLUS,
    .BREAK_END].contains b

/-- A word that cannot come next, is no point, and is not taken for a SID by mistake. -/
def unfit (q : Phase) (w : Token) : Bool :=
  !q.allows w && !(w.base == .POINT) &&
  match q with
  | .point _ => !(w.base == .SLASH) && !(w.base == .SID)
  | .stay => !(w.base == .SID)
  | .adep | .sid | .dct | .route => true
  | .climb | .text _ => false

theorem unfit_of_stray {q : Phase} {w : Token} (ho : Open (some q)) (hw : strayBase w.base = true) : unfit q w = true := by
  unfold unfit Phase.allows
  cases q <;> cases hb : w.base <;> rw [hb] at hw <;> first | exact ho.elim | rfl | cases hw

/-- `Goes`, and a word that cannot come next may come first. -/
def NGoes (q : Phase) (e : Ers F) (ts : List Token) (r : Ers F) : Prop :=
  Goes q e ts r ∨ ∃ w ts', ts = w :: ts' ∧ unfit q w = true ∧ Typed w ∧
    (q = .sid ∨ q = .dct ∨ q = .route ∨ q = .stay) ∧ Evs (.addErrorAndReSync w (unexpected q w)) e ts' r

variable {e : Ers F} {t : Token} {ts : List Token} {r : Ers F}

theorem bee_evs (ht : Typed t) (hb : t.base = .BREAK_END) (h : Evs (.addErrorAndReSync t (misplaced t)) e ts r) :
    Evs (.breakEndError t) e ts r := by
  refine .of1 h fun call => ?_
  show breakEndError call t _ = _
  unfold breakEndError misplaced
  rw [hb]
  rcases breakEnd_sub ht hb with h | h | h <;> rw [h] <;> rfl

theorem nb_dct (he : e.recs ≠ []) (h : NGoes .dct ((Act.plain t).run e) ts r) : Evs (.dct t) e ts r := by
  rcases h with h | ⟨w, ts', rfl, hs, _, _, h⟩
  · exact b_dct he h
  · refine .of1 h fun call => ?_
    rw [step_dct call t e (w :: ts') he]
    dsimp only
    cases hb : w.base <;> first | rfl | (simp [unfit, Phase.allows, hb] at hs)

theorem nb_route (he : e.recs ≠ []) (h : NGoes .route ((Act.route t).run e) ts r) : Evs (.route t) e ts r := by
  rcases h with h | ⟨w, ts', rfl, hs, hw, _, h⟩
  · exact b_route he h
  · by_cases hb : w.base = .BREAK_END
    · have : unexpected .route w = misplaced w := by unfold unexpected; rw [hb]
      rw [this] at h
      refine .of1 (bee_evs hw hb h) fun call => ?_
      rw [step_route call t e (w :: ts') he]
      dsimp only
      rw [hb]
    · refine .of1 h fun call => ?_
      rw [step_route call t e (w :: ts') he]
      unfold unexpected misplaced
      dsimp only
      cases hb' : w.base <;> first | exact absurd hb' hb | rfl | (simp [unfit, Phase.allows, hb'] at hs)

theorem nb_postSid (h : NGoes .sid e ts r) : Evs .postSid e ts r := by
  rcases h with h | ⟨w, ts', rfl, hs, hw, _, h⟩
  · exact b_postSid h
  · refine .of1 h fun call => ?_
    rw [step_postSid call e (w :: ts')]
    unfold unexpected
    dsimp only
    cases hb : w.base <;> first | rfl | (simp [unfit, Phase.allows, hb] at hs)

theorem nb_sid (he : e.recs.length = 1) (hc : t.base = .SID ∨ t.base = .SID_STAR) (h : NGoes .sid ((Act.sid t).run e) ts r) :
    ∃ c, itemCall t = some c ∧ Evs c e ts r := by
  have hne : e.recs ≠ [] := by intro h; rw [h] at he; cases he
  have := nb_postSid h
  rcases hc with hb | hb
  · refine ⟨.sid t, by unfold itemCall; rw [hb], .of1 this fun call => ?_⟩
    rw [step_sid call t e ts hne, if_pos he]
  · refine ⟨.sidStar t, by unfold itemCall; rw [hb], .of1 this fun call => ?_⟩
    rw [step_sidStar call t e ts hne, if_pos he]

theorem nb_stayTime (ht : TimeOfDay t.text) (he : e.recs ≠ []) (h : NGoes .stay ((Act.stay t).run e) ts r) : Evs (.stayTime t) e ts r := by
  rcases h with h | ⟨w, ts', rfl, hs, hw, _, h⟩
  · exact b_stayTime ht he h
  · by_cases hb : w.base = .BREAK_END
    · have : unexpected .stay w = misplaced w := by unfold unexpected; rw [hb]
      rw [this] at h
      refine .of1 (bee_evs hw hb h) fun call => ?_
      rw [step_stayTime call t ht e (w :: ts') he]
      dsimp only
      rw [hb]
    · refine .of1 h fun call => ?_
      rw [step_stayTime call t ht e (w :: ts') he]
      unfold unexpected misplaced
      dsimp only
      cases hb' : w.base <;> first | exact absurd hb' hb | rfl | (simp [unfit, Phase.allows, hb'] at hs)

theorem ngoes {q : Phase} (h : NGoes q e ts r) (hq : q ≠ .sid ∧ q ≠ .dct ∧ q ≠ .route ∧ q ≠ .stay) : Goes q e ts r := by
  rcases h with h | ⟨_, _, _, _, _, h | h | h | h, _⟩
  · exact h
  · exact absurd h hq.1
  · exact absurd h hq.2.1
  · exact absurd h hq.2.2.1
  · exact absurd h hq.2.2.2

/-- Reading up to a phase, whatever comes after. -/
theorem bwd_to {q : Phase} {u : List Token} {as : List Act} {z : Option Phase} (h : RunToG c q u as z) (hT : ∀ t ∈ u, Typed t)
    {p : Phase} (hz : z = some p) (ho : Open z) {ts : List Token} {A : List Act}
    (hk : ∀ e : Ers F, Fits p e → NGoes p e ts (runs A e)) :
    ∀ e : Ers F, Fits q e → NGoes q e (u ++ ts) (runs (as ++ A) e) := by
  induction h with
  | here q => cases hz; exact hk
  | truncate | star => cases hz
  | sid hb hr ih =>
    intro e hf
    obtain ⟨c, hc, hev⟩ := nb_sid hf.2 hb (ih (fun x hx => hT x (by simp [hx])) hz ho _ (fits_two rfl hf.1 (.inl rfl)))
    exact .inl (go_item hf (by rcases hb with hb | hb <;> simp [Phase.allows, hb]) hc hev)
  | dct hq hb hr ih =>
    intro e hf
    exact .inl (go_item hf hq (by unfold itemCall; rw [hb])
      (nb_dct hf.1 (ih (fun x hx => hT x (by simp [hx])) hz ho _ (fits_two rfl hf.1 (.inr (.inl rfl))))))
  | route hq hb hr ih =>
    intro e hf
    exact .inl (go_item hf hq (by unfold itemCall; rw [hb])
      (nb_route hf.1 (ih (fun x hx => hT x (by simp [hx])) hz ho _ (fits_two rfl hf.1 (.inr (.inr (.inl rfl)))))))
  | point hq hb hn hr ih =>
    intro e hf
    exact .inl (go_item hf hq (by unfold itemCall; rw [hb])
      (b_point (hT _ (by simp)) hf.1 (ngoes (ih (fun x hx => hT x (by simp [hx])) hz ho _ (fits_push (.inl rfl) hf.1)) (by simp))))
  | climb hq hb hr ih =>
    intro e hf
    exact .inl (go_item hf hq (by unfold itemCall; rw [hb])
      (b_climb hf.1 (ngoes (ih (fun x hx => hT x (by simp [hx])) hz ho _ (fits_two rfl hf.1 (.inr (.inr (.inr rfl))))) (by simp))))
  | cruise hq hb hs hp hs' hl hr ih =>
    intro e hf
    exact .inl (go_item hf hq (by unfold itemCall; rw [hb])
      (b_cruise (hT _ (by simp)) (hT _ (by simp)) hf.1 hs hs' hl
        (ngoes (ih (fun x hx => hT x (by simp [hx])) hz ho _ (fits_note (climb_note hl) (fits_push (.inr (.inr rfl)) hf.1))) (by simp))))
  | stay hq hb hs hm hr ih =>
    rename_i q t s m us as z
    intro e hf
    have h2 := hf.two (fun h => by rw [h] at hq; simp [Phase.allows, hb] at hq)
    refine .inl (go_item hf hq (by unfold itemCall; rw [hb]) (.of1 (nb_stayTime (stay_facts (hT m (by simp)) hm) hf.1
      (ih (fun x hx => hT x (by simp [hx])) hz ho _ ⟨Act.run_ne _ _ hf.1, two_note rfl hf.1 h2⟩)) fun call => ?_))
    show step _ _ ⟨e, s :: m :: (us ++ ts)⟩ = _
    rw [step_stay]
    dsimp only
    rw [if_neg (by rw [hs]; decide), if_neg (by rw [hm]; decide)]
  | break_ hq hb hr ih =>
    intro e hf
    exact .inl (go_item hf hq (by unfold itemCall; rw [hb])
      (b_break hf.1 (ngoes (ih (fun x hx => hT x (by simp [hx])) hz ho _
        ⟨Act.run_ne _ _ hf.1, two_push rfl hf.1, headRules_brk (hT _ (by simp)) hb hf.1⟩) (by simp))))
  | level hs hb hl hr ih =>
    rename_i f s l us as z
    intro e hf
    have h2 := hf.2.1
    have := b_level (hT l (by simp)) hb hf.1 f (by
      rw [if_neg (by omega)]; exact ngoes (ih (fun x hx => hT x (by simp [hx])) hz ho _ (fits_note rfl hf)) (by simp))
    have : Evs (.forwardSlash s) e (l :: (us ++ ts)) _ := .of1 this fun call => by
      rw [step_slash]; dsimp only; rw [hb]
    exact .inl (.of1 this fun call => by rw [step_postPoint call s e _ hf.1, hs]; rfl)
  | vfr hs hb hr ih =>
    rename_i f s l us as z
    intro e hf
    have := b_vfr (hT l (by simp)) hb hf.1 (ngoes (ih (fun x hx => hT x (by simp [hx])) hz ho _
      ⟨Act.run_ne _ _ hf.1, two_push rfl hf.1, headRules_vfr hf.1⟩) (by simp))
    have : Evs (.forwardSlash s) e (l :: (us ++ ts)) _ := .of1 this fun call => by
      rw [step_slash]; dsimp only; rw [hb]
    exact .inl (.of1 this fun call => by rw [step_postPoint call s e _ hf.1, hs]; rfl)
  | word hb hc hr ih =>
    rename_i r t us as z
    intro e hf
    have ih := ngoes (ih (fun x hx => hT x (by simp [hx])) hz ho ((Act.text t).run e)
      ⟨Act.run_ne _ _ hf.1, two_note rfl hf.1 hf.2.1, (headRules_text hf.1).trans hf.2.2⟩) (by simp)
    have hne : us ≠ [] := by rintro rfl; cases hr; exact ho
    obtain ⟨x, xs, rfl⟩ := List.exists_cons_of_ne_nil hne
    have hc' : closes t r → readOn t (x :: (xs ++ ts)) := by
      intro h
      rcases hc h with h | ⟨h, s, rest, rfl, h'⟩
      · exact .inl h
      · exact .inr ⟨h, s, rest ++ ts, rfl, h'⟩
    refine .inl ⟨hb, ?_⟩
    obtain ⟨n, hn⟩ := ih.2
    by_cases hcl : closes t r
    · refine .of ⟨n + 1, fun m hm => ?_⟩
      show step _ _ ⟨e, x :: (xs ++ ts)⟩ = _
      rw [step_text _ t e _ hf.1 hb]
      unfold textBody
      rw [headRules_eq, hf.2.2, if_pos ((endsBreak_iff t _).2 hcl)]
      obtain ⟨k, rfl⟩ : ∃ k, m = k + 1 := ⟨m - 1, by omega⟩
      rw [b_readOn (hc' hcl) k]
      exact hn (k + 1) (by omega)
    · refine .of ⟨n, fun m hm => ?_⟩
      show step _ _ ⟨e, x :: (xs ++ ts)⟩ = _
      rw [step_text _ t e _ hf.1 hb]
      unfold textBody
      rw [headRules_eq, hf.2.2, if_neg (fun h => hcl ((endsBreak_iff t _).1 h))]
      exact hn m hm
  | resume hc hi hb hp hn hr ih =>
    rename_i r t p us as z
    intro e hf
    have he' := Act.run_ne (.text t) e hf.1
    have := b_point (hT p (by simp)) he' (ngoes (ih (fun x hx => hT x (by simp [hx])) hz ho _ (fits_push (.inl rfl) he')) (by simp))
    refine .inl ⟨hb, b_text hf.1 hb (by rw [hf.2.2]; exact hc) (.of1 this fun call => ?_)⟩
    rw [step_breakEnd]
    show (if p.base ≠ .POINT then _ else _) = _
    rw [if_neg (by rw [hp]; decide), if_neg hi]; rfl
  | resumeIfr hc hi hb hp hn hs hl hk' hr ih =>
    rename_i r t p s l us as z
    intro e hf
    have he' := Act.run_ne (.text t) e hf.1
    have h1 := b_level (e := (Act.vToI p).run ((Act.text t).run e)) (hT l (by simp)) hl (Act.run_ne _ _ he') (isFixed p) (by
      have := two_push (a := .vToI p) rfl he'
      rw [if_neg (by omega)]
      exact ngoes (ih (fun x hx => hT x (by simp [hx])) hz ho _ (fits_note rfl (fits_push (.inr (.inl rfl)) he'))) (by simp))
    have h2 : Evs .vToI ((Act.text t).run e) (p :: s :: l :: (us ++ ts)) _ :=
      .of1 h1 fun call => step_vToI call p s l (hT p (by simp)) _ _ he'
    obtain ⟨n, hn⟩ := h2.andThen (k := endTail) fun call => rfl
    refine .inl ⟨hb, b_text hf.1 hb (by rw [hf.2.2]; exact hc) (.of ⟨n, fun m hm => ?_⟩)⟩
    show step _ _ ⟨_, p :: s :: l :: (us ++ ts)⟩ = _
    rw [step_breakEnd]
    dsimp only
    rw [if_neg (by rw [hp]; decide), if_pos hi, if_neg (by rw [hs]; decide), if_pos hl]
    exact hn m hm
  | resumeVfr hc hi hb hp hs hl hr ih =>
    rename_i r t p s l us as z
    intro e hf
    have he' := Act.run_ne (.text t) e hf.1
    have he2 := Act.run_ne (.vToIToV p) _ he'
    have h1 := b_vfr (e := (Act.vToIToV p).run ((Act.text t).run e)) (hT l (by simp)) hl he2
      (ngoes (ih (fun x hx => hT x (by simp [hx])) hz ho _ ⟨Act.run_ne _ _ he2, two_push rfl he2, headRules_vfr he2⟩) (by simp))
    have h2 : Evs .vToIToV ((Act.text t).run e) (p :: s :: l :: (us ++ ts)) _ :=
      .of1 h1 fun call => step_vToIToV call p s l _ _ he'
    obtain ⟨n, hn⟩ := h2.andThen (k := endTail) fun call => rfl
    refine .inl ⟨hb, b_text hf.1 hb (by rw [hf.2.2]; exact hc) (.of ⟨n, fun m hm => ?_⟩)⟩
    show step _ _ ⟨_, p :: s :: l :: (us ++ ts)⟩ = _
    rw [step_breakEnd]
    dsimp only
    rw [if_neg (by rw [hp]; decide), if_pos hi, if_neg (by rw [hs]; decide), if_neg (by rw [hl]; decide), if_pos hl]
    exact hn m hm

end F15
