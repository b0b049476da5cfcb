import Verif.Lemmas.Fault
/-!
# The first new error of an execution is the first fault: the remaining methods and the induction
-/

namespace F15
open Spec

set_option linter.unusedSectionVars false
variable {F : Type} [PyFloat F] {T : List Token}

theorem pref_trans {a b c : List (Record F)} (h1 : ∃ l, b = l ++ a) (h2 : ∃ l, c = l ++ b) : ∃ l, c = l ++ a := by
  obtain ⟨l, rfl⟩ := h1
  obtain ⟨l', rfl⟩ := h2
  exact ⟨l' ++ l, by simp⟩

/-- A fault at or after a point read by `q`. -/
theorem fault_point_inv {pre post ts : List Token} {x p : Token} {n : Nat} (h : Fault .dct pre x post n)
    (he : p :: ts = pre ++ x :: post) (hp : p.base = .POINT) :
    (pre = [] ∧ x = p ∧ FirstRangeFault p.sub p.text n) ∨
    (∃ pre', pre = p :: pre' ∧ PositionOk p ∧ Fault (.point (isFixed p)) pre' x post n) := by
  have ha : Phase.allows .dct p = true := by simp [Phase.allows, hp]
  cases h with
  | here hq =>
    simp only [List.nil_append, List.cons.injEq] at he
    rw [← he.1, ha] at hq; cases hq
  | position hq hb hn =>
    simp only [List.nil_append, List.cons.injEq] at he
    obtain ⟨rfl, rfl⟩ := he
    exact .inl ⟨rfl, rfl, hn⟩
  | point hq hb hn h =>
    simp only [List.cons_append, List.cons.injEq] at he
    obtain ⟨rfl, rfl⟩ := he
    exact .inr ⟨_, rfl, hn, h⟩
  | stayEnd hq hb =>
    simp only [List.nil_append, List.cons.injEq] at he
    obtain ⟨rfl, rfl⟩ := he
    rw [hp] at hb; cases hb
  | star hq hb =>
    simp only [List.cons_append, List.cons.injEq] at he
    obtain ⟨rfl, rfl⟩ := he
    rw [hp] at hb; simp at hb
  | _ =>
    simp only [List.cons_append, List.cons.injEq] at he
    obtain ⟨rfl, rfl⟩ := he
    simp_all

section
variable {call : Call → ML F Unit} (bi : GIH T call) (ke : Keeps T call) (ad : Adds T call) (fi : FIH T call)
variable (mo : Mono T call) (hT : ∀ t ∈ T, Typed t)
variable {e : Ers F} {ts : List Token} {s : St (List Token) F} (hi : Inv T e ts)
include bi ke ad fi mo hT hi

theorem endTail_keeps {s1 : St (List Token) F} (h1 : Inv T s1.ers s1.toks) (h : endTail call s1.ers s1.toks = .ok ((), s)) :
    ∃ l, s.ers.errs = l ++ s1.ers.errs := by
  obtain ⟨e1, t1⟩ := s1
  cases t1 with
  | nil => obtain rfl := done_inj h; exact ⟨[], rfl⟩
  | cons x xs => exact ke (.point x) _ _ _ h1.tail h1.mem h

theorem textTail_keeps {s1 : St (List Token) F} (h1 : Inv T s1.ers s1.toks) (h : textTail call s1.ers s1.toks = .ok ((), s)) :
    ∃ l, s.ers.errs = l ++ s1.ers.errs := by
  obtain ⟨e1, t1⟩ := s1
  cases t1 with
  | nil => obtain rfl := done_inj h; exact ⟨[], rfl⟩
  | cons x xs => exact ke (.breakTextSave x) _ _ _ h1.tail h1.suf h

variable {t : Token} (ht : t ∈ T)
include ht

theorem textBody_keeps (hj : t.base = .TOO_LONG ∨ t :: ts <:+ T) (h : textBody call t e ts hi.ne = .ok ((), s)) : ∃ l, s.ers.errs = l ++ e.errs := by
  unfold textBody at h
  have he : ((Act.text t).run e).errs = e.errs := nums_errs rfl e
  split at h
  · rename_i hend
    have hj' : t :: ts <:+ T := hj.resolve_left fun hl => by rw [long_no_end (hT t ht) hl] at hend; cases hend
    obtain ⟨s1, h1, h2⟩ := andThen_ok h
    have i1 := (mo (.breakEnd t) _ _ _ (hi.run (.text t)) hj' h1).2
    have k1 := ke (.breakEnd t) _ _ _ (hi.run (.text t)) hj' h1
    rw [he] at k1
    exact pref_trans k1 (textTail_keeps bi ke ad fi mo hT hi i1 h2)
  · have := textTail_keeps bi ke ad fi mo hT hi (s1 := ⟨(Act.text t).run e, ts⟩) (hi.run (.text t)) h
    dsimp only at this
    rwa [he] at this

variable (hl : e.errs.length < s.ers.errs.length)
include hl

theorem g_breakEnd (hw : t :: ts <:+ T) (h2 : 2 ≤ e.recs.length) (h : step call (.breakEnd t) ⟨e, ts⟩ = .ok ((), s)) : Falls e ts (.breakEnd t) s := by
  intro r hc htl
  rw [step_breakEnd call t e ts] at h
  cases ts with
  | nil => obtain rfl := done_inj h; exact absurd hl (Nat.lt_irrefl _)
  | cons p ts' =>
    dsimp only at h
    split at h
    · obtain rfl := done_inj h; exact absurd hl (Nat.lt_irrefl _)
    · rename_i hp
      have hp : p.base = .POINT := Decidable.byContradiction hp
      split at h
      · rename_i hs
        cases ts' with
        | nil => exact ⟨[t], p, [], 22, rfl, .ifrEnd hc hs htl hp, ad _ _ _ _ _ hi ⟨hi.mem, by decide⟩ h⟩
        | cons sl ts'' =>
          dsimp only at h
          split at h
          · obtain rfl := done_inj h; exact absurd hl (Nat.lt_irrefl _)
          · rename_i hsl
            have hsl : sl.base = .SLASH := Decidable.byContradiction hsl
            cases ts'' with
            | nil => exact ⟨[t], p, [sl], 22, rfl, .ifrSlashEnd hc hs htl hp hsl, ad _ _ _ _ _ hi ⟨hi.mem, by decide⟩ h⟩
            | cons l ts3 =>
              dsimp only at h
              have seq : ∀ c, (c = .vToI ∨ c = .vToIToV) → Pre T (p :: sl :: l :: ts3) c →
                  andThen (call c ⟨e, p :: sl :: l :: ts3⟩) (endTail call) = .ok ((), s) →
                  BadAt e.errs s (.text r) (t :: p :: sl :: l :: ts3) := by
                intro c hcc hpr h
                obtain ⟨s1, h1, h3⟩ := andThen_ok h
                have i1 := (mo c _ _ _ hi hpr h1).2
                have hn : Need e c := by rcases hcc with rfl | rfl <;> exact h2
                rcases Nat.lt_or_ge e.errs.length s1.ers.errs.length with hlt | hge
                · have b := bi c _ _ _ hi hpr hn h1 hlt
                  have b' : BadAt e.errs s1 (.text r) (t :: p :: sl :: l :: ts3) := by
                    rcases hcc with rfl | rfl <;> exact b r t hc hs htl
                  exact b'.trans (endTail_keeps bi ke ad fi mo hT hi i1 h3)
                · have f := fi c _ _ _ hi hpr hn h1 hge
                  have f' : s1.toks = [] := by rcases hcc with rfl | rfl <;> exact f.1
                  have := (endTail_mono fi mo hT hi i1 h3).2 f'
                  rw [this] at hl; omega
              split at h
              · rename_i hb
                exact seq _ (.inl rfl) ⟨p, sl, l, ts3, rfl, hp, hsl, hb⟩ h
              · split at h
                · rename_i hb
                  exact seq _ (.inr rfl) ⟨p, sl, l, ts3, rfl, hp, hsl, hb, t, hs, hw⟩ h
                · exact ⟨[t], p, sl :: l :: ts3, 22, rfl, .ifrSlash hc hs htl hp hsl (by assumption) (by assumption),
                    ad _ _ _ _ _ hi ⟨hi.mem, by decide⟩ h⟩
      · rename_i hs
        have b := bi (.point p) _ _ _ hi.tail hi.mem trivial h hl
        refine BadAt.map (q' := .dct) [t] (b hp .dct (by simp [Phase.allows, hp])) fun pre x post n he hf => ?_
        rcases fault_point_inv hf he hp with ⟨rfl, rfl, hr⟩ | ⟨pre', rfl, hok, hf'⟩
        · exact .resumePosition hc hs htl hp hr
        · exact .resume hc hs htl hp hok hf'

theorem g_textTail (h2 : 2 ≤ e.recs.length) (htl : t.base ≠ .TOO_LONG) (hc : closes t (headRules e) → readOn t ts)
    (h : textTail call ((Act.text t).run e) ts = .ok ((), s)) : BadAt e.errs s (.text (headRules e)) (t :: ts) := by
  cases ts with
  | nil => exact (ret_bad' h rfl hl).elim
  | cons nt ts =>
    obtain ⟨h3, h4⟩ := aft' bi ke hi.tail (a := .text t) (c := .breakTextSave nt) hi.suf (two_note rfl hi.ne h2) rfl h hl
    have h4 : BadAt _ s (.text (headRules _)) (nt :: ts) := h4
    rw [headRules_text hi.ne, h3] at h4
    exact h4.map [t] fun pre x post n he hf => .word htl (fun h => he ▸ hc h) hf

theorem g_text (hw : t :: ts <:+ T) (h2 : 2 ≤ e.recs.length) (h : step call (.breakTextSave t) ⟨e, ts⟩ = .ok ((), s)) :
    Falls e ts (.breakTextSave t) s := by
  show BadAt _ _ _ _
  by_cases hb : t.base = .TOO_LONG
  · rw [step_text_long call t e ts hb] at h
    obtain ⟨s1, h1, h3⟩ := andThen_ok h
    have i1 := (mo (.addErrorAndReSync t 4) _ _ _ hi ⟨ht, by decide⟩ h1).2
    rw [dif_pos i1.ne] at h3
    exact .here ((ad _ _ _ _ _ hi ⟨ht, by decide⟩ h1).trans (textBody_keeps bi ke ad fi mo hT i1 ht (.inl hb) h3)) (.tooLong hb)
  · rw [step_text call t e ts hi.ne hb] at h
    unfold textBody at h
    rw [headRules_eq hi.ne] at h
    split at h
    · rename_i hc
      rw [endsBreak_iff] at hc
      obtain ⟨s1, h1, h3⟩ := andThen_ok h
      have i1 := (mo (.breakEnd t) _ _ _ (hi.run (.text t)) hw h1).2
      have he : ((Act.text t).run e).errs = e.errs := nums_errs rfl e
      rcases Nat.lt_or_ge e.errs.length s1.ers.errs.length with hlt | hge
      · have b := bi (.breakEnd t) _ _ _ (hi.run (.text t)) hw (two_note rfl hi.ne h2) h1 (by rw [he]; exact hlt)
        have b := b _ hc hb
        rw [he] at b
        exact b.trans (textTail_keeps bi ke ad fi mo hT hi i1 h3)
      · rcases fi (.breakEnd t) _ _ _ (hi.run (.text t)) hw (two_note rfl hi.ne h2) h1 (by rw [he]; exact hge) with
          ⟨rfl, hro⟩ | ⟨h4, _⟩
        · exact g_textTail bi ke ad fi mo hT hi ht hl h2 hb (fun _ => hro) h3
        · have := (textTail_mono fi mo hT hi i1 h3).2 h4
          rw [this] at hl; omega
    · rename_i hc
      rw [endsBreak_iff] at hc
      exact g_textTail bi ke ad fi mo hT hi ht hl h2 hb (fun h => absurd h hc) h

theorem g_C (h2 : 2 ≤ e.recs.length) (hc : t.base = .C) (h : step call (.cruiseClimbC t) ⟨e, ts⟩ = .ok ((), s)) :
    Falls e ts (.cruiseClimbC t) s := by
  intro q hq
  rw [step_C call t e ts hi.ne] at h
  cases ts with
  | nil => exact (ret_bad' h rfl hl).elim
  | cons nt ts =>
    have h2' := two_push (a := .plain t) rfl hi.ne
    have lift : nt.base ≠ .SLASH → BadAt e.errs s .climb (nt :: ts) → BadAt e.errs s q (t :: nt :: ts) := by
      intro hns hs
      refine hs.map [t] fun pre x post n he hf => .climb hq hc ?_ hf
      cases pre with
      | nil => simp only [List.nil_append, List.cons.injEq] at he; simp [← he.1, hns]
      | cons y pre => simp only [List.cons_append, List.cons.injEq] at he; simp [← he.1, hns]
    have items : ∀ {c}, Pre T ts c → Need ((Act.plain t).run e) c → call c ⟨(Act.plain t).run e, ts⟩ = .ok ((), s) →
        ((Act.plain t).run e).errs = e.errs ∧ Falls ((Act.plain t).run e) ts c s :=
      fun hp hn h => aft' bi ke hi.tail (a := .plain t) hp hn rfl h hl
    dsimp only at h
    cases hb : nt.base <;> rw [hb] at h <;> dsimp only at h
    case BREAK_END =>
      exact lift (by simp [hb]) (.unexp (bi (.breakEndError nt) _ _ _ hi.tail hi.mem hb h hl)
        (by simp [unexpected]) (by simp [Phase.allows, hb]) (by simp) (by simp))
    case SLASH =>
      cases ts with
      | nil => exact ⟨[t], nt, [], 52, rfl, .climbEnd hq hc hb, aft_err bi hi.tail ad ⟨hi.mem, by decide⟩ rfl h⟩
      | cons x ts => exact bi (.cruiseClimbPoint x) _ _ _ hi.tail.tail hi.tail.mem h2 h hl q t nt hc hq hb
    case BREAK_START =>
      obtain ⟨h1, h3⟩ := items (c := .breakStart nt) ⟨hi.mem, hb⟩ h2' h
      exact lift (by simp [hb]) (h1 ▸ h3 .climb (by simp [Phase.allows, hb]))
    case DCT =>
      obtain ⟨h1, h3⟩ := items (c := .dct nt) ⟨hi.mem, hb⟩ trivial h
      exact lift (by simp [hb]) (h1 ▸ h3 .climb (by simp [Phase.allows, hb]))
    case STAY =>
      obtain ⟨h1, h3⟩ := items (c := .stay nt) hi.mem h2' h
      exact lift (by simp [hb]) (h1 ▸ h3 hb .climb (by simp [Phase.allows, hb]))
    case TRUNCATE =>
      obtain ⟨h1, h3⟩ := items (c := .truncate) trivial trivial h
      exact lift (by simp [hb]) (h1 ▸ h3 .climb nt hb (by simp [Phase.allows, hb]))
    case C =>
      obtain ⟨h1, h3⟩ := items (c := .cruiseClimbC nt) ⟨hi.mem, hb⟩ h2' h
      exact lift (by simp [hb]) (h1 ▸ h3 .climb (by simp [Phase.allows, hb]))
    case POINT =>
      obtain ⟨h1, h3⟩ := items (c := .point nt) hi.mem trivial h
      exact lift (by simp [hb]) (h1 ▸ h3 hb .climb (by simp [Phase.allows, hb]))
    case ROUTE =>
      obtain ⟨h1, h3⟩ := items (c := .route nt) ⟨hi.mem, hb⟩ h2' h
      exact lift (by simp [hb]) (h1 ▸ h3 .climb (by simp [Phase.allows, hb]))
    case SID_STAR =>
      obtain ⟨h1, h3⟩ := items (c := .sidStar nt) ⟨hi.mem, hb⟩ trivial h
      exact lift (by simp [hb]) (h1 ▸ h3.2 (by omega) .climb (by simp) (by simp [Phase.allows, hb]))
    case STAR =>
      obtain ⟨h1, h3⟩ := items (c := .star nt) ⟨hi.mem, hb⟩ trivial h
      exact lift (by simp [hb]) (h1 ▸ h3 .climb (by simp [Phase.allows, hb]))
    case SID =>
      obtain ⟨h1, h3⟩ := items (c := .sid nt) ⟨hi.mem, hb⟩ trivial h
      exact lift (by simp [hb]) (.unexp (h1 ▸ h3.2 (by omega)) (by simp [unexpected, misplaced, hb])
        (by simp [Phase.allows, hb]) (by simp) (by simp))
    all_goals
      exact lift (by simp [hb]) (.unexp (ad _ _ _ _ _ hi.tail ⟨hi.mem, by decide⟩ h) (by simp [unexpected, misplaced, hb])
        (by simp [Phase.allows, hb]) (by simp) (by simp))

theorem g_ccPoint (h2 : 2 ≤ e.recs.length) (h : step call (.cruiseClimbPoint t) ⟨e, ts⟩ = .ok ((), s)) :
    Falls e ts (.cruiseClimbPoint t) s := by
  intro q c s0 hcb hq hs0
  rw [step_ccPoint call t (hT t ht) e ts hi.ne] at h
  dsimp only at h
  have kk : ∀ {e1 : Ers F} {ts1 : List Token}, Inv T e1 ts1 → (match ts1 with
        | [] => call (.addErrorAndReSync t 28) ⟨e1, []⟩
        | nt2 :: ts => andThen ((if nt2.base = BaseType.SPEED_ALTITUDE_ALTITUDE then call (.assignSpeedAltitudeAltitude nt2)
            else if nt2.base = BaseType.SPEED_ALTITUDE_PLUS then call (.assignSpeedAltitudePlus nt2)
            else call (.addErrorAndReSync nt2 29)) ⟨e1, ts⟩) (endTail call)) = .ok ((), s) → ∃ l, s.ers.errs = l ++ e1.errs := by
    intro e1 ts1 i1 h
    cases ts1 with
    | nil => exact ke (.addErrorAndReSync t 28) _ _ _ i1 ⟨ht, by decide⟩ h
    | cons l ts1 =>
      dsimp only at h
      obtain ⟨s1, h1, h3⟩ := andThen_ok h
      have : (∃ l, s1.ers.errs = l ++ e1.errs) ∧ Inv T s1.ers s1.toks := by
        split at h1
        · have hp : Pre T ts1 (.assignSpeedAltitudeAltitude l) := ⟨i1.mem, by assumption⟩
          exact ⟨ke _ _ _ _ i1.tail hp h1, (mo _ _ _ _ i1.tail hp h1).2⟩
        · split at h1
          · have hp : Pre T ts1 (.assignSpeedAltitudePlus l) := ⟨i1.mem, by assumption⟩
            exact ⟨ke _ _ _ _ i1.tail hp h1, (mo _ _ _ _ i1.tail hp h1).2⟩
          · have hp : Pre T ts1 (.addErrorAndReSync l 29) := ⟨i1.mem, by decide⟩
            exact ⟨ke _ _ _ _ i1.tail hp h1, (mo _ _ _ _ i1.tail hp h1).2⟩
      exact pref_trans this.1 (endTail_keeps bi ke ad fi mo hT hi this.2 h3)
  have hkeep : ∃ l, s.ers.errs = l ++ ((Act.ccPoint t).run e).errs := by
    cases ts with
    | nil => exact ke (.addErrorAndReSync t 27) _ _ _ (hi.run _) ⟨ht, by decide⟩ h
    | cons nt ts =>
      dsimp only at h
      split at h
      · obtain ⟨s1, h1, h3⟩ := andThen_ok h
        have hp : Pre T ts (.addErrorAndReSync nt 26) := ⟨hi.mem, by decide⟩
        exact pref_trans (ke _ _ _ _ (hi.tail.run _) hp h1) (kk (mo _ _ _ _ (hi.tail.run _) hp h1).2 h3)
      · exact kk (hi.tail.run _) h
  cases hn0 : (Act.ccPoint t).nums with
  | cons n ns =>
    refine ⟨[c, s0], t, ts, n, rfl, .cruisePosition hq hcb hs0 (first_range (hT t ht) ?_), ?_⟩
    · show (Act.ccPoint t).nums.head? = some n
      rw [hn0]; simp
    · obtain ⟨l, hk⟩ := hkeep
      rw [run_errs, hn0] at hk
      exact ⟨l ++ (ns.map (errRec t)).reverse, by rw [hk]; simp [Act.tok]⟩
  | nil =>
    have hp : PositionOk t := (pos_iff (hT t ht)).2 hn0
    cases ts with
    | nil => exact ⟨[c, s0], t, [], 27, rfl, .cruiseEnd hq hcb hs0 hp, aft_err bi hi ad ⟨ht, by decide⟩ hn0 h⟩
    | cons nt ts =>
      dsimp only at h
      split at h
      · obtain ⟨s1, h1, h3⟩ := andThen_ok h
        have m := mo (.addErrorAndReSync nt 26) _ _ _ (hi.tail.run (.ccPoint t)) ⟨hi.mem, by decide⟩ h1
        exact ⟨[c, s0, t], nt, ts, 26, rfl, .cruiseSlash hq hcb hs0 hp (by assumption),
          (aft_err bi hi.tail ad ⟨hi.mem, by decide⟩ hn0 h1).trans (kk m.2 h3)⟩
      · rename_i hs
        have hs : nt.base = .SLASH := Decidable.byContradiction hs
        cases ts with
        | nil => exact ⟨[c, s0], t, [nt], 28, rfl, .cruiseLevelsEnd hq hcb hs0 hp hs, aft_err bi hi.tail ad ⟨ht, by decide⟩ hn0 h⟩
        | cons l ts =>
          dsimp only at h
          obtain ⟨s1, h1, h3⟩ := andThen_ok h
          have i1 := hi.tail.tail.run (F := F) (.ccPoint t)
          have he := nums_errs hn0 e
          have h2' := two_push (a := .ccPoint t) rfl hi.ne
          have hsub : isLlOrBd (headSub ((Act.ccPoint t).run e)) = isFixed t := by
            rw [headSub_push (.inr (.inr rfl)) hi.ne, ← isFixed_eq]
          have lift : ClimbLevels l → BadAt e.errs s1 (.point (isFixed t)) ts → (∃ l, s.ers.errs = l ++ s1.ers.errs) →
              BadAt e.errs s q (c :: s0 :: t :: nt :: l :: ts) := fun hcl b k =>
            (b.map [c, s0, t, nt, l] fun pre x post n _ hf => .cruise hq hcb hs0 hp hs hcl hf).trans k
          split at h1
          · rename_i hb
            have hpr : Pre T ts (.assignSpeedAltitudeAltitude l) := ⟨hi.tail.mem, hb⟩
            have m := mo _ _ _ _ i1 hpr h1
            have k := endTail_keeps bi ke ad fi mo hT hi m.2 h3
            rcases Nat.lt_or_ge e.errs.length s1.ers.errs.length with hlt | hge
            · rcases bi _ _ _ _ i1 hpr h2' h1 (by rw [he]; exact hlt) with ⟨h5, h6⟩ | ⟨h5, h6⟩
              · rw [he] at h6
                exact ⟨[c, s0, t, nt], l, ts, 40, rfl, .cruiseStep hq hcb hs0 hp hs (.inl ⟨hb, h5⟩), h6.trans k⟩
              · rw [he, hsub] at h6
                exact lift h5 h6 k
            · have f := (fi _ _ _ _ i1 hpr h2' h1 (by rw [he]; exact hge)).1
              have := (endTail_mono fi mo hT hi m.2 h3).2 f
              rw [this] at hl; omega
          · split at h1
            · rename_i hb
              have hpr : Pre T ts (.assignSpeedAltitudePlus l) := ⟨hi.tail.mem, hb⟩
              have m := mo _ _ _ _ i1 hpr h1
              have k := endTail_keeps bi ke ad fi mo hT hi m.2 h3
              rcases Nat.lt_or_ge e.errs.length s1.ers.errs.length with hlt | hge
              · rcases bi _ _ _ _ i1 hpr h2' h1 (by rw [he]; exact hlt) with ⟨h5, h6⟩ | ⟨h5, h6⟩
                · rw [he] at h6
                  exact ⟨[c, s0, t, nt], l, ts, 40, rfl, .cruiseStep hq hcb hs0 hp hs (.inr ⟨hb, h5⟩), h6.trans k⟩
                · rw [he, hsub] at h6
                  exact lift h5 h6 k
              · have f := (fi _ _ _ _ i1 hpr h2' h1 (by rw [he]; exact hge)).1
                have := (endTail_mono fi mo hT hi m.2 h3).2 f
                rw [this] at hl; omega
            · have hpr : Pre T ts (.addErrorAndReSync l 29) := ⟨hi.tail.mem, by decide⟩
              have m := mo _ _ _ _ i1 hpr h1
              have k := endTail_keeps bi ke ad fi mo hT hi m.2 h3
              exact ⟨[c, s0, t, nt], l, ts, 29, rfl, .cruiseLevels hq hcb hs0 hp hs (by assumption) (by assumption),
                (aft_err bi hi.tail.tail ad ⟨hi.tail.mem, by decide⟩ hn0 h1).trans k⟩

end

theorem adds_exec (hT : ∀ t ∈ T, Typed t) : ∀ n, Adds (F := F) T (exec n)
  | 0 => fun t m e ts s _ _ h => by cases h
  | n + 1 => by
    intro t m e ts s hi hp h
    change step (exec n) _ ⟨e, ts⟩ = _ at h
    rw [step_err _ t m (plainErr.isSome hp.2) e ts hi.ne] at h
    exact keeps_of (trace_exec (F := F) hT n) .reSync _ _ _ (hi.run (.err t m)) trivial h

theorem gih_exec (hT : ∀ t ∈ T, Typed t) : ∀ n, GIH (F := F) T (exec n)
  | 0 => fun c e ts s _ _ _ h => by cases h
  | n + 1 => by
    intro c e ts s hi hp hn h hl
    have bi := gih_exec hT n
    have ke := keeps_of (trace_exec (F := F) hT n)
    have ad := adds_exec (F := F) hT n
    have fi := fih_exec (F := F) hT n
    have mo := mono_of (trace_exec (F := F) hT n)
    have h0 := h
    change step (exec n) c ⟨e, ts⟩ = _ at h
    cases c with
    | addErrorAndReSync t m => exact adds_exec hT (n + 1) t m e ts s hi hp h0
    | assignSpeedAltitude t => exact g_level bi ke ad fi mo hT hi hl hp.1 hp.2 h
    | assignSpeedAltitudeAltitude t => exact g_levels bi ke ad fi mo hT hi hl hp.1 hn hp.2 h
    | assignSpeedAltitudePlus t => exact g_plus bi ke ad fi mo hT hi hl hp.1 hn hp.2 h
    | assignSpeedVfr t => exact g_vfr bi ke ad fi mo hT hi hl hp.1 hp.2 h
    | breakEnd t => exact g_breakEnd bi ke ad fi mo hT hi (hp.subset (by simp)) hl hp hn h
    | breakEndError t =>
      have hn : t.base = .BREAK_END := hn
      show FirstErr _ _ _ _
      have key : ∀ m, plainErr m = true → misplaced t = m →
          (∀ st : St (List Token) F, breakEndError (exec n) t st = exec n (.addErrorAndReSync t m) st) →
          FirstErr e.errs s t (misplaced t) := by
        intro m hpm hm he
        rw [hm]
        exact ad t m e ts s hi ⟨hp, hpm⟩ (by rw [← h]; exact (he _).symm)
      rcases breakEnd_sub (hT t hp) hn with hs | hs | hs
      · exact key 6 (by decide) (by simp [misplaced, hn, hs]) fun st => by unfold breakEndError; rw [hs]; rfl
      · exact key 7 (by decide) (by simp [misplaced, hn, hs]) fun st => by unfold breakEndError; rw [hs]; rfl
      · exact key 8 (by decide) (by simp [misplaced, hn, hs]) fun st => by unfold breakEndError; rw [hs]; rfl
    | breakStart t => exact g_breakStart bi ke ad fi mo hT hi hl hp.1 hp.2 h
    | breakTextSave t => exact g_text bi ke ad fi mo hT hi (hp.subset (by simp)) hl hp hn h
    | cruiseClimbC t => exact g_C bi ke ad fi mo hT hi hp.1 hl hn hp.2 h
    | cruiseClimbPoint t => exact g_ccPoint bi ke ad fi mo hT hi hp hl hn h
    | dct t => exact g_dct bi ke ad fi mo hT hi hp.1 hl hp.2 h
    | forwardSlash t => exact g_slash bi ke ad fi mo hT hi hl hp hn h
    | postAdep t => exact g_postAdep bi ke ad fi mo hT hi hl hp hn h
    | postPoint t => exact g_postPoint bi ke ad fi mo hT hi hl hp hn h
    | postSid => exact g_postSid bi ke ad fi mo hT hi hl hn h
    | point t => exact g_point bi ke ad fi mo hT hi hp hl h
    | reSync => trivial
    | route t => exact g_route bi ke ad fi mo hT hi hp.1 hl hp.2 h
    | sid t => exact g_sid bi ke ad fi mo hT hi hp.1 hl hp.2 h
    | sidStar t => exact g_sidStar bi ke ad fi mo hT hi hp.1 hl hp.2 h
    | star t => exact g_star bi ke ad fi mo hT hi hp.1 hl hp.2 h
    | stay t => exact g_stay bi ke ad fi mo hT hi hp hl hn h
    | stayTime t => exact g_stayTime bi ke ad fi mo hT hi hp.1 hl hn hp.2 h
    | truncate => exact g_truncate bi ke ad fi mo hT hi hl h
    | vToI =>
      obtain ⟨p, sl, l, ts', rfl, h1, h2, h3⟩ := hp
      intro r t hc hs htl
      rw [step_vToI _ p sl l (hT p hi.mem) e ts' hi.ne] at h
      rcases aft bi ke hi.tail.tail.tail (a := .vToI p) (c := .assignSpeedAltitude l) ⟨hi.tail.tail.mem, h3⟩ trivial h hl with
        ⟨n, h4, h5⟩ | ⟨h4, h5, h6⟩
      · exact ⟨[t], p, _, n, rfl, .ifrPosition hc hs htl h1 h2 h3 (first_range (hT p hi.mem) h4), h5⟩
      · have hok : PositionOk p := (pos_iff (hT p hi.mem)).2 h4
        have := two_push (a := .vToI p) rfl hi.ne
        rcases h6 with ⟨h7, h8⟩ | ⟨h7, h8⟩
        · rw [h5] at h8
          exact ⟨[t, p, sl], l, ts', 40, rfl, .ifrStep hc hs htl h1 hok h2 h3 h7, h8⟩
        · rw [if_neg (by omega), headSub_push (.inr (.inl rfl)) hi.ne, ← isFixed_eq, h5] at h8
          exact h8.map [t, p, sl, l] fun pre x post n _ hf => .resumeIfr hc hs htl h1 hok h2 h3 h7 hf
    | vToIToV =>
      obtain ⟨p, sl, l, ts', rfl, h1, h2, h3, _⟩ := hp
      intro r t hc hs htl
      rw [step_vToIToV _ p sl l e ts' hi.ne] at h
      obtain ⟨h5, h6⟩ := aft' bi ke hi.tail.tail.tail (a := .vToIToV p) (c := .assignSpeedVfr l) ⟨hi.tail.tail.mem, h3⟩ trivial rfl h hl
      have h6 : BadAt _ s (.text _) ts' := h6
      rw [h5] at h6
      exact h6.map [t, p, sl, l] fun pre x post n _ hf => .resumeVfr hc hs htl h1 h2 h3 hf

end F15
