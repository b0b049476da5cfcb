import Verif.Lemmas.Accept2
/-!
# Executions without new errors follow the grammar: the remaining methods and the induction
-/

namespace F15
open Spec

set_option linter.unusedSectionVars false
variable {F : Type} [PyFloat F] {T : List Token}

theorem andThen_ok {r : Res F} {k : Ers F → List Token → Res F} {s : St (List Token) F} (h : andThen r k = .ok ((), s)) :
    ∃ s1, r = .ok ((), s1) ∧ k s1.ers s1.toks = .ok ((), s) := by
  cases r with
  | error => cases h
  | ok p => exact ⟨p.2, rfl, h⟩

section
variable {call : Call → ML F Unit} (fi : FIH T call) (mo : Mono T call) (hT : ∀ t ∈ T, Typed t)
variable {e : Ers F} {ts : List Token} {s : St (List Token) F} (hi : Inv T e ts)
variable (hl : s.ers.errs.length ≤ e.errs.length)
include fi mo hT hi hl
variable {t : Token} (ht : t ∈ T)

omit fi mo hT hi hl in
theorem bee_err (ht : Typed t) (hb : t.base = .BREAK_END) : ∃ n, plainErr n ∧
    ∀ st : St (List Token) F, step call (.breakEndError t) st = call (.addErrorAndReSync t n) st := by
  rcases breakEnd_sub ht hb with h | h | h
  · refine ⟨6, by decide, fun st => ?_⟩
    show breakEndError call t st = _
    unfold breakEndError; rw [h]; rfl
  · refine ⟨7, by decide, fun st => ?_⟩
    show breakEndError call t st = _
    unfold breakEndError; rw [h]; rfl
  · refine ⟨8, by decide, fun st => ?_⟩
    show breakEndError call t st = _
    unfold breakEndError; rw [h]; rfl

omit hl in
theorem endTail_mono {s1 : St (List Token) F} (h1 : Inv T s1.ers s1.toks) (h : endTail call s1.ers s1.toks = .ok ((), s)) :
    s1.ers.errs.length ≤ s.ers.errs.length ∧ (s1.toks = [] → s = s1) := by
  obtain ⟨e1, t1⟩ := s1
  cases t1 with
  | nil => obtain rfl := done_inj h; exact ⟨Nat.le_refl _, fun _ => rfl⟩
  | cons x xs => exact ⟨(mo (.point x) _ _ _ h1.tail h1.mem h).1, fun h => nomatch h⟩

omit hl in
theorem textTail_mono {s1 : St (List Token) F} (h1 : Inv T s1.ers s1.toks) (h : textTail call s1.ers s1.toks = .ok ((), s)) :
    s1.ers.errs.length ≤ s.ers.errs.length ∧ (s1.toks = [] → s = s1) := by
  obtain ⟨e1, t1⟩ := s1
  cases t1 with
  | nil => obtain rfl := done_inj h; exact ⟨Nat.le_refl _, fun _ => rfl⟩
  | cons x xs => exact ⟨(mo (.breakTextSave x) _ _ _ h1.tail h1.suf h).1, fun h => nomatch h⟩

omit hl in
include ht in
theorem textBody_mono (hj : t.base = .TOO_LONG ∨ t :: ts <:+ T) (h : textBody call t e ts hi.ne = .ok ((), s)) : e.errs.length ≤ s.ers.errs.length := by
  unfold textBody at h
  have he := run_errs_len (.text t) e
  split at h
  · rename_i hend
    have hj' : t :: ts <:+ T := hj.resolve_left fun hl => by rw [long_no_end (hT t ht) hl] at hend; cases hend
    obtain ⟨s1, h1, h2⟩ := andThen_ok h
    obtain ⟨m1, i1⟩ := mo (.breakEnd t) _ _ _ (hi.run (.text t)) hj' h1
    have := (textTail_mono fi mo hT hi i1 h2).1
    omega
  · have := (textTail_mono fi mo hT hi (s1 := ⟨(Act.text t).run e, ts⟩) (hi.run (.text t)) h).1
    dsimp only at this
    omega

include ht

theorem f_breakEnd (hw : t :: ts <:+ T) (h2 : 2 ≤ e.recs.length) (h : step call (.breakEnd t) ⟨e, ts⟩ = .ok ((), s)) : Fin e ts (.breakEnd t) s := by
  rw [step_breakEnd call t e ts] at h
  cases ts with
  | nil => obtain rfl := done_inj h; exact .inl ⟨rfl, trivial⟩
  | cons p ts' =>
    dsimp only at h
    have errP : ∀ {ts1}, Inv T e ts1 → call (.addErrorAndReSync p 22) ⟨e, ts1⟩ = .ok ((), s) → False := fun h1 h =>
      no_err fi mo h1 (t := p) ⟨hi.mem, by decide⟩ h1 h hl
    split at h
    · obtain rfl := done_inj h; exact .inl ⟨rfl, .inl (by assumption)⟩
    · rename_i hp
      have hp : p.base = .POINT := Decidable.byContradiction hp
      split at h
      · rename_i hs
        cases ts' with
        | nil => exact (errP hi h).elim
        | cons sl ts'' =>
          dsimp only at h
          split at h
          · obtain rfl := done_inj h; exact .inl ⟨rfl, .inr ⟨hs, sl, ts'', rfl, by assumption⟩⟩
          · rename_i hsl
            have hsl : sl.base = .SLASH := Decidable.byContradiction hsl
            cases ts'' with
            | nil => exact (errP hi h).elim
            | cons l ts3 =>
              dsimp only at h
              split at h
              · rename_i hb
                obtain ⟨s1, h1, h3⟩ := andThen_ok h
                have hp' : Pre T (p :: sl :: l :: ts3) .vToI := ⟨p, sl, l, ts3, rfl, hp, hsl, hb⟩
                obtain ⟨_, i1⟩ := mo .vToI _ _ _ hi hp' h1
                obtain ⟨m2, m3⟩ := endTail_mono fi mo hT hi i1 h3
                obtain ⟨h4, as, ⟨p', s', l', ts4, b, heq, rfl, hn1, hn2, hr⟩, h5⟩ := fi .vToI _ _ _ hi hp' h2 h1 (by omega)
                obtain rfl := m3 h4
                simp only [List.cons.injEq] at heq
                obtain ⟨rfl, rfl, rfl, rfl⟩ := heq
                exact .inr ⟨h4, _, h5, .inr ⟨hs, _, _, _, _, b, rfl, hp, hsl, .inl ⟨hb, rfl, hn1, hn2, hr⟩⟩⟩
              · split at h
                · rename_i hb
                  obtain ⟨s1, h1, h3⟩ := andThen_ok h
                  have hp' : Pre T (p :: sl :: l :: ts3) .vToIToV := ⟨p, sl, l, ts3, rfl, hp, hsl, hb, t, hs, hw⟩
                  obtain ⟨_, i1⟩ := mo .vToIToV _ _ _ hi hp' h1
                  obtain ⟨m2, m3⟩ := endTail_mono fi mo hT hi i1 h3
                  obtain ⟨h4, as, ⟨p', s', l', ts4, b, heq, rfl, hr⟩, h5⟩ := fi .vToIToV _ _ _ hi hp' h2 h1 (by omega)
                  obtain rfl := m3 h4
                  simp only [List.cons.injEq] at heq
                  obtain ⟨rfl, rfl, rfl, rfl⟩ := heq
                  exact .inr ⟨h4, _, h5, .inr ⟨hs, _, _, _, _, b, rfl, hp, hsl, .inr ⟨hb, rfl, hr⟩⟩⟩
                · exact (errP hi h).elim
      · rename_i hs
        obtain ⟨h4, as, ⟨b, rfl, hn, hr⟩, h5⟩ := fi (.point p) _ _ _ hi.tail hi.mem trivial h hl
        exact .inr ⟨h4, _, h5, .inl ⟨hs, p, ts', b, rfl, hp, rfl, hn, hr⟩⟩

/-- `textTail` after the text has been saved. -/
theorem f_textTail (h2 : 2 ≤ e.recs.length) (h : textTail call ((Act.text t).run e) ts = .ok ((), s)) :
    s.toks = [] ∧ ∃ b, Run (.text (headRules e)) ts b ∧ s.ers = runs (.text t :: b) e := by
  cases ts with
  | nil => obtain rfl := done_inj h; exact ⟨rfl, [], .stop _, rfl⟩
  | cons nt ts =>
    obtain ⟨_, h4, as, hr, h5⟩ := after fi mo hi.tail (a := .text t) (c := .breakTextSave nt) hi.suf (two_note rfl hi.ne h2) h hl
    have hr : Run (.text (headRules _)) (nt :: ts) as := hr
    rw [headRules_text hi.ne] at hr
    exact ⟨h4, as, hr, h5⟩

theorem f_text (hw : t :: ts <:+ T) (h2 : 2 ≤ e.recs.length) (h : step call (.breakTextSave t) ⟨e, ts⟩ = .ok ((), s)) : Fin e ts (.breakTextSave t) s := by
  by_cases hb : t.base = .TOO_LONG
  · rw [step_text_long call t e ts hb] at h
    obtain ⟨s1, h1, h3⟩ := andThen_ok h
    obtain ⟨_, i1⟩ := mo (.addErrorAndReSync t 4) _ _ _ hi ⟨ht, by decide⟩ h1
    rw [dif_pos i1.ne] at h3
    have := textBody_mono fi mo hT i1 ht (.inl hb) h3
    exact (no_err fi mo hi (t := t) ⟨ht, by decide⟩ hi h1 (by omega)).elim
  · rw [step_text call t e ts hi.ne hb] at h
    unfold textBody at h
    rw [headRules_eq hi.ne] at h
    split at h
    · rename_i hc
      rw [endsBreak_iff] at hc
      obtain ⟨s1, h1, h3⟩ := andThen_ok h
      obtain ⟨m1, i1⟩ := mo (.breakEnd t) _ _ _ (hi.run (.text t)) hw h1
      obtain ⟨m2, m3⟩ := textTail_mono fi mo hT hi i1 h3
      have he := run_errs_len (.text t) e
      have hn : (Act.text t).nums.length = 0 := rfl
      have := fi (.breakEnd t) _ _ _ (hi.run (.text t)) hw (two_note rfl hi.ne h2) h1 (by omega)
      rcases this with ⟨rfl, hro⟩ | ⟨h4, as, h5, ⟨hs, p, ts', b, rfl, hp, rfl, hn, hr⟩ | ⟨hs, p, sl, l, ts', b, rfl, hp, hsl,
          ⟨hlb, rfl, hn1, hn2, hr⟩ | ⟨hlb, rfl, hr⟩⟩⟩
      · obtain ⟨h4, b, hr, h5⟩ := f_textTail fi mo hT hi hl ht h2 h3
        exact ⟨h4, .text t :: b, .word hb (fun _ => hro) hr, h5⟩
      · obtain rfl := m3 h4
        exact ⟨h4, .text t :: .point p :: b, .resume hc hs hb hp (fun _ => hn) hr, h5⟩
      · obtain rfl := m3 h4
        exact ⟨h4, .text t :: .vToI p :: .level l :: b, .resumeIfr hc hs hb hp (fun _ => hn1) hsl hlb (fun _ => hn2) hr, h5⟩
      · obtain rfl := m3 h4
        exact ⟨h4, .text t :: .vToIToV p :: .vfr l :: b, .resumeVfr hc hs hb hp hsl hlb hr, h5⟩
    · rename_i hc
      rw [endsBreak_iff] at hc
      obtain ⟨h4, b, hr, h5⟩ := f_textTail fi mo hT hi hl ht h2 h
      exact ⟨h4, .text t :: b, .word hb (fun h => absurd h hc) hr, h5⟩

theorem f_C (h2 : 2 ≤ e.recs.length) (hc : t.base = .C) (h : step call (.cruiseClimbC t) ⟨e, ts⟩ = .ok ((), s)) :
    Fin e ts (.cruiseClimbC t) s := by
  rw [step_C call t e ts hi.ne] at h
  cases ts with
  | nil =>
    obtain ⟨rfl, hn⟩ := ret_act h hl
    exact ⟨rfl, [.plain t], .inl ⟨[], rfl, .stop _⟩, rfl⟩
  | cons nt ts =>
    have h2' := two_push (a := .plain t) rfl hi.ne
    have fin : ∀ c as, Reads ((Act.plain t).run e) ts c as → (Reads ((Act.plain t).run e) ts c as → Run .climb (nt :: ts) as) →
        s.toks = [] → s.ers = runs as ((Act.plain t).run e) → Fin e (nt :: ts) (.cruiseClimbC t) s := by
      intro c as hr hf h1 h3
      exact ⟨h1, .plain t :: as, .inl ⟨as, rfl, hf hr⟩, h3⟩
    dsimp only at h
    cases hb : nt.base <;> rw [hb] at h <;> dsimp only at h
    case BREAK_END => exact (no_bee fi mo hi.tail hi.mem hb h hl).elim
    case SLASH =>
      cases ts with
      | nil => exact (after_err fi mo hi.tail ⟨hi.mem, by decide⟩ h hl).elim
      | cons x ts =>
        obtain ⟨h1, as, ⟨s', l, a, ts', b, rfl, hp, hs', hla, rfl, hr⟩, h3⟩ := fi (.cruiseClimbPoint x) _ _ _ hi.tail.tail hi.tail.mem h2 h hl
        exact ⟨h1, _, .inr ⟨nt, x, s', l, a, ts', b, rfl, hb, hp, hs', hla, rfl, hr⟩, h3⟩
    case BREAK_START =>
      obtain ⟨_, h1, as, hr, h3⟩ := after fi mo hi.tail (a := .plain t) (c := .breakStart nt) ⟨hi.mem, hb⟩ h2' h hl
      exact fin _ as hr ((item (q := .climb) (by simp [Phase.allows, hb])).2.2.2.2.2.2.1 hb) h1 h3
    case DCT =>
      obtain ⟨_, h1, as, hr, h3⟩ := after fi mo hi.tail (a := .plain t) (c := .dct nt) ⟨hi.mem, hb⟩ trivial h hl
      exact fin _ as hr ((item (q := .climb) (by simp [Phase.allows, hb])).2.2.1 hb) h1 h3
    case STAY =>
      obtain ⟨_, h1, as, hr, h3⟩ := after fi mo hi.tail (a := .plain t) (c := .stay nt) hi.mem h2' h hl
      exact fin _ as hr ((item (q := .climb) (by simp [Phase.allows, hb])).2.2.2.2.2.1 hb) h1 h3
    case TRUNCATE =>
      obtain ⟨_, h1, as, hr, h3⟩ := after fi mo hi.tail (a := .plain t) (c := .truncate) trivial trivial h hl
      exact fin _ as hr ((item (q := .climb) (by simp [Phase.allows, hb])).2.2.2.2.1 hb) h1 h3
    case C =>
      obtain ⟨_, h1, as, hr, h3⟩ := after fi mo hi.tail (a := .plain t) (c := .cruiseClimbC nt) ⟨hi.mem, hb⟩ h2' h hl
      exact fin _ as hr ((item (q := .climb) (by simp [Phase.allows, hb])).2.2.2.2.2.2.2.1 hb) h1 h3
    case POINT =>
      obtain ⟨_, h1, as, hr, h3⟩ := after fi mo hi.tail (a := .plain t) (c := .point nt) hi.mem trivial h hl
      exact fin _ as hr ((item (q := .climb) (by simp [Phase.allows, hb])).1 hb) h1 h3
    case ROUTE =>
      obtain ⟨_, h1, as, hr, h3⟩ := after fi mo hi.tail (a := .plain t) (c := .route nt) ⟨hi.mem, hb⟩ h2' h hl
      exact fin _ as hr ((item (q := .climb) (by simp [Phase.allows, hb])).2.1 hb) h1 h3
    case SID_STAR =>
      obtain ⟨_, h1, as, hr, h3⟩ := after fi mo hi.tail (a := .plain t) (c := .sidStar nt) ⟨hi.mem, hb⟩ trivial h hl
      exact fin _ as hr ((item (q := .climb) (by simp [Phase.allows, hb])).2.2.2.2.2.2.2.2 hb (by decide) h2') h1 h3
    case STAR =>
      obtain ⟨_, h1, as, hr, h3⟩ := after fi mo hi.tail (a := .plain t) (c := .star nt) ⟨hi.mem, hb⟩ trivial h hl
      exact fin _ as hr ((item (q := .climb) (by simp [Phase.allows, hb])).2.2.2.1 hb) h1 h3
    case SID =>
      obtain ⟨_, h1, as, hr, h3⟩ := after fi mo hi.tail (a := .plain t) (c := .sid nt) ⟨hi.mem, hb⟩ trivial h hl
      have := hr.1; omega
    all_goals exact (no_err fi mo hi.tail (t := nt) ⟨hi.mem, by decide⟩ hi.tail h hl).elim

/-- The end of `cruise_climb_point`. -/
theorem f_ccEnd (l : Token) (hlT : l ∈ T) (c : Call) (h2 : 2 ≤ e.recs.length)
    (hc : (c = .assignSpeedAltitudeAltitude l ∧ l.base = .SPEED_ALTITUDE_ALTITUDE) ∨
      (c = .assignSpeedAltitudePlus l ∧ l.base = .SPEED_ALTITUDE_PLUS))
    (h : andThen (call c ⟨e, ts⟩) (endTail call) = .ok ((), s)) :
    s.toks = [] ∧ ∃ a b, ClimbAct l a ∧ Run (.point (isLlOrBd (headSub e))) ts b ∧ s.ers = runs (a :: b) e := by
  obtain ⟨s1, h1, h3⟩ := andThen_ok h
  have hp : Pre T ts c := by rcases hc with ⟨rfl, hb⟩ | ⟨rfl, hb⟩ <;> exact ⟨hlT, hb⟩
  have hn : Need e c := by rcases hc with ⟨rfl, h⟩ | ⟨rfl, h⟩ <;> exact h2
  obtain ⟨m1, i1⟩ := mo c _ _ _ hi hp h1
  obtain ⟨m2, m3⟩ := endTail_mono fi mo hT hi i1 h3
  have f := fi c _ _ _ hi hp hn h1 (by omega)
  have f' : s1.toks = [] ∧ ∃ as, (∃ a b, ClimbAct l a ∧ as = a :: b ∧ Run (.point (isLlOrBd (headSub e))) ts b) ∧ s1.ers = runs as e := by
    rcases hc with ⟨rfl, h⟩ | ⟨rfl, h⟩ <;> exact f
  obtain ⟨h4, as, ⟨a, b, ha, rfl, hr⟩, h5⟩ := f'
  obtain rfl := m3 h4
  exact ⟨h4, a, b, ha, hr, h5⟩

theorem f_ccPoint (h2 : 2 ≤ e.recs.length) (h : step call (.cruiseClimbPoint t) ⟨e, ts⟩ = .ok ((), s)) :
    Fin e ts (.cruiseClimbPoint t) s := by
  rw [step_ccPoint call t (hT t ht) e ts hi.ne] at h
  dsimp only at h
  have he := run_errs_len (.ccPoint t) e
  have kmono : ∀ {e1 : Ers F} {ts1 : List Token}, Inv T e1 ts1 → (match ts1 with
        | [] => call (.addErrorAndReSync t 28) ⟨e1, []⟩
        | nt2 :: ts => andThen ((if nt2.base = BaseType.SPEED_ALTITUDE_ALTITUDE then call (.assignSpeedAltitudeAltitude nt2)
            else if nt2.base = BaseType.SPEED_ALTITUDE_PLUS then call (.assignSpeedAltitudePlus nt2)
            else call (.addErrorAndReSync nt2 29)) ⟨e1, ts⟩) (endTail call)) = .ok ((), s) → e1.errs.length ≤ s.ers.errs.length := by
    intro e1 ts1 i1 h
    cases ts1 with
    | nil => exact (mo (.addErrorAndReSync t 28) _ _ _ i1 ⟨ht, by decide⟩ h).1
    | cons l ts1 =>
      dsimp only at h
      obtain ⟨s1, h1, h3⟩ := andThen_ok h
      have : e1.errs.length ≤ s1.ers.errs.length ∧ Inv T s1.ers s1.toks := by
        split at h1
        · exact mo (.assignSpeedAltitudeAltitude l) _ _ _ i1.tail ⟨i1.mem, by assumption⟩ h1
        · split at h1
          · exact mo (.assignSpeedAltitudePlus l) _ _ _ i1.tail ⟨i1.mem, by assumption⟩ h1
          · exact mo (.addErrorAndReSync l 29) _ _ _ i1.tail ⟨i1.mem, by decide⟩ h1
      have m2 := (endTail_mono fi mo hT i1 this.2 h3).1
      omega
  cases ts with
  | nil => exact (after_err fi mo hi ⟨ht, by decide⟩ h hl).elim
  | cons nt ts =>
    dsimp only at h
    split at h
    · obtain ⟨s1, h1, h3⟩ := andThen_ok h
      obtain ⟨m1, i1⟩ := mo (.addErrorAndReSync nt 26) _ _ _ (hi.tail.run (.ccPoint t)) ⟨hi.mem, by decide⟩ h1
      have := kmono i1 h3
      exact (after_err fi mo hi.tail ⟨hi.mem, by decide⟩ h1 (by omega)).elim
    · rename_i hs
      have hs : nt.base = .SLASH := Decidable.byContradiction hs
      have i1 := hi.tail.run (.ccPoint t)
      have m1 := kmono i1 h
      have hn : (Act.ccPoint t).nums = [] := List.length_eq_zero_iff.1 (by omega)
      cases ts with
      | nil => exact (after_err fi mo hi.tail ⟨ht, by decide⟩ h hl).elim
      | cons l ts =>
        dsimp only at h
        have fin : ∀ c, ((c = .assignSpeedAltitudeAltitude l ∧ l.base = .SPEED_ALTITUDE_ALTITUDE) ∨
            (c = .assignSpeedAltitudePlus l ∧ l.base = .SPEED_ALTITUDE_PLUS)) →
            andThen (call c ⟨(Act.ccPoint t).run e, ts⟩) (endTail call) = .ok ((), s) →
            Fin e (nt :: l :: ts) (.cruiseClimbPoint t) s := by
          intro c hc h
          obtain ⟨h4, a, b, ha, hr, h5⟩ := f_ccEnd fi mo hT i1.tail (by omega) ht l i1.mem c (two_push rfl hi.ne) hc h
          rw [headSub_push (.inr (.inr rfl)) hi.ne, ← isFixed_eq] at hr
          exact ⟨h4, .ccPoint t :: a :: b, ⟨nt, l, a, ts, b, rfl, hn, hs, ha, rfl, hr⟩, h5⟩
        split at h
        · exact fin _ (.inl ⟨rfl, by assumption⟩) h
        · split at h
          · exact fin _ (.inr ⟨rfl, by assumption⟩) h
          · obtain ⟨s1, h1, h3⟩ := andThen_ok h
            obtain ⟨m2, i2⟩ := mo (.addErrorAndReSync l 29) _ _ _ i1.tail ⟨i1.mem, by decide⟩ h1
            have m3 := (endTail_mono fi mo hT i1 i2 h3).1
            exact (after_err fi mo hi.tail.tail ⟨i1.mem, by decide⟩ h1 (by omega)).elim

end

theorem fih_exec (hT : ∀ t ∈ T, Typed t) : ∀ n, FIH (F := F) T (exec n)
  | 0 => fun c e ts s _ _ _ h => by cases h
  | n + 1 => by
    intro c e ts s hi hp hn h hl
    have fi := fih_exec hT n
    have mo := mono_of (trace_exec (F := F) hT n)
    change step (exec n) c ⟨e, ts⟩ = _ at h
    cases c with
    | addErrorAndReSync t m =>
      exfalso
      rw [step_err _ t m (plainErr.isSome hp.2) e ts hi.ne] at h
      have h1 := (mo .reSync _ _ _ (hi.run (.err t m)) trivial h).1
      have h2 := run_errs_len (.err t m) e
      have : (Act.err t m).nums.length = 1 := rfl
      omega
    | assignSpeedAltitude t => exact f_level fi mo hT hi hl hp.1 hp.2 h
    | assignSpeedAltitudeAltitude t => exact f_levels fi mo hT hi hl hp.1 hn hp.2 h
    | assignSpeedAltitudePlus t => exact f_plus fi mo hT hi hl hp.1 hn hp.2 h
    | assignSpeedVfr t => exact f_vfr fi mo hT hi hl hp.1 hp.2 h
    | breakEnd t => exact f_breakEnd fi mo hT hi hl (hp.subset (by simp)) hp hn h
    | breakEndError t =>
      obtain ⟨m, hm, he⟩ := bee_err (F := F) (call := exec n) (hT t hp) hn
      rw [he] at h
      exact (no_err fi mo hi ⟨hp, hm⟩ hi h hl).elim
    | breakStart t => exact f_breakStart fi mo hT hi hl hp.1 hp.2 h
    | breakTextSave t => exact f_text fi mo hT hi hl (hp.subset (by simp)) hp hn h
    | cruiseClimbC t => exact f_C fi mo hT hi hl hp.1 hn hp.2 h
    | cruiseClimbPoint t => exact f_ccPoint fi mo hT hi hl hp hn h
    | dct t => exact f_dct fi mo hT hi hp.1 hl h
    | forwardSlash t => exact f_slash fi mo hT hi hl hp hn h
    | postAdep t => exact f_postAdep fi mo hT hi hl hp hn h
    | postPoint t => exact f_postPoint fi mo hT hi hl hp hn h
    | postSid => exact f_postSid fi mo hT hi hl hn h
    | point t => exact f_point fi mo hT hi hp hl h
    | reSync => trivial
    | route t => exact f_route fi mo hT hi hp.1 hl h
    | sid t => exact f_sid fi mo hT hi hp.1 hl h
    | sidStar t => exact f_sidStar fi mo hT hi hp.1 hl h
    | star t => exact f_star fi mo hT hi hp.1 hl h
    | stay t => exact f_stay fi mo hT hi hp hl hn h
    | stayTime t => exact f_stayTime fi mo hT hi hp.1 hl hn hp.2 h
    | truncate => exact f_truncate fi mo hT hi hl h
    | vToI =>
      obtain ⟨p, sl, l, ts', rfl, h1, h2, h3⟩ := hp
      rw [step_vToI _ p sl l (hT p hi.mem) e ts' hi.ne] at h
      obtain ⟨hn1, h4, as, ⟨b, rfl, hn2, hr⟩, h5⟩ := after fi mo hi.tail.tail.tail (a := .vToI p) (c := .assignSpeedAltitude l)
        ⟨hi.tail.tail.mem, h3⟩ trivial h hl
      have := two_push (a := .vToI p) rfl hi.ne
      rw [if_neg (by omega), headSub_push (.inr (.inl rfl)) hi.ne, ← isFixed_eq] at hr
      exact ⟨h4, _, ⟨p, sl, l, ts', b, rfl, rfl, hn1, hn2, hr⟩, h5⟩
    | vToIToV =>
      obtain ⟨p, sl, l, ts', rfl, h1, h2, h3, _⟩ := hp
      rw [step_vToIToV _ p sl l e ts' hi.ne] at h
      obtain ⟨hn1, h4, as, ⟨b, rfl, hr⟩, h5⟩ := after fi mo hi.tail.tail.tail (a := .vToIToV p) (c := .assignSpeedVfr l)
        ⟨hi.tail.tail.mem, h3⟩ trivial h hl
      exact ⟨h4, _, ⟨p, sl, l, ts', b, rfl, rfl, hr⟩, h5⟩

end F15
