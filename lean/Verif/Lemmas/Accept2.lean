import Verif.Lemmas.Accept
/-!
# Executions without new errors follow the grammar: one lemma per method
-/

namespace F15
open Spec

set_option linter.unusedSectionVars false
variable {F : Type} [PyFloat F] {T : List Token}

theorem done_inj {e' : Ers F} {ts : List Token} {s : St (List Token) F} (h : done e' ts = .ok ((), s)) : s = ⟨e', ts⟩ := by
  cases h; rfl

theorem ret_act {a : Act} {e : Ers F} {ts : List Token} {s : St (List Token) F} (h : done (a.run e) ts = .ok ((), s))
    (hl : s.ers.errs.length ≤ e.errs.length) : s = ⟨a.run e, ts⟩ ∧ a.nums = [] := by
  obtain rfl := done_inj h
  have h2 := run_errs_len a e
  exact ⟨rfl, List.length_eq_zero_iff.1 (by dsimp only at hl; omega)⟩

set_option hygiene false in
local macro "errA" : tactic => `(tactic| exact (after_err fi mo (Inv.tail hi) ⟨Inv.mem hi, by decide⟩ h hl).elim)
set_option hygiene false in
local macro "errN" : tactic => `(tactic| exact (no_err fi mo hi (t := _) ⟨by first | exact ht | exact Inv.mem hi, by decide⟩ hi h hl).elim)

section
variable {call : Call → ML F Unit} (fi : FIH T call) (mo : Mono T call) (hT : ∀ t ∈ T, Typed t)
variable {e : Ers F} {ts : List Token} {s : St (List Token) F} (hi : Inv T e ts)
variable {t : Token} (ht : t ∈ T)
variable (hl : s.ers.errs.length ≤ e.errs.length)
include fi mo hT hi ht hl

theorem f_point (h : step call (.point t) ⟨e, ts⟩ = .ok ((), s)) : Fin e ts (.point t) s := by
  rw [step_point call t (hT t ht) e ts hi.ne] at h
  cases ts with
  | nil =>
    obtain ⟨rfl, hn⟩ := ret_act h hl
    exact ⟨rfl, [.point t], ⟨[], rfl, hn, .stop _⟩, rfl⟩
  | cons nt ts =>
    obtain ⟨hn, h1, as, hr, h2⟩ := after fi mo hi.tail (a := .point t) (c := .postPoint nt) hi.mem
      (two_push rfl hi.ne) h hl
    refine ⟨h1, .point t :: as, ⟨as, rfl, hn, ?_⟩, h2⟩
    have hr : Run (.point (isLlOrBd (headSub _))) (nt :: ts) as := hr
    rw [headSub_push (.inl rfl) hi.ne] at hr
    rw [isFixed_eq]; exact hr

theorem f_route (h : step call (.route t) ⟨e, ts⟩ = .ok ((), s)) : Fin e ts (.route t) s := by
  rw [step_route call t e ts hi.ne] at h
  cases ts with
  | nil =>
    obtain ⟨rfl, hn⟩ := ret_act h hl
    exact ⟨rfl, [.route t], ⟨[], rfl, .stop _⟩, rfl⟩
  | cons nt ts =>
    have h2 := two_push (a := .route t) rfl hi.ne
    have fin : ∀ c as, Reads ((Act.route t).run e) ts c as → (Reads ((Act.route t).run e) ts c as → Run .route (nt :: ts) as) →
        s.toks = [] → s.ers = runs as ((Act.route t).run e) → Fin e (nt :: ts) (.route t) s := by
      intro c as hr hf h1 h3
      exact ⟨h1, .route t :: as, ⟨as, rfl, hf hr⟩, h3⟩
    dsimp only at h
    cases hb : nt.base <;> rw [hb] at h <;> dsimp only at h
    case BREAK_END => exact (after_bee fi mo hi.tail hi.mem hb h hl).elim
    case TRUNCATE =>
      obtain ⟨_, h1, as, hr, h3⟩ := after fi mo hi.tail (a := .route t) (c := .truncate) trivial trivial h hl
      exact fin _ as hr ((item (q := .route) (by simp [Phase.allows, hb])).2.2.2.2.1 hb) h1 h3
    case C =>
      obtain ⟨_, h1, as, hr, h3⟩ := after fi mo hi.tail (a := .route t) (c := .cruiseClimbC nt) ⟨hi.mem, hb⟩ h2 h hl
      exact fin _ as hr ((item (q := .route) (by simp [Phase.allows, hb])).2.2.2.2.2.2.2.1 hb) h1 h3
    case POINT =>
      by_cases hf : isLlOrBd nt.sub = true
      · rw [if_pos hf] at h
        cases h4 : call (.addErrorAndReSync nt 48) ⟨(Act.route t).run e, ts⟩ with
        | error x => rw [h4] at h; cases h
        | ok p =>
          obtain ⟨_, s1⟩ := p
          rw [h4] at h
          have m1 := mo (.addErrorAndReSync nt 48) _ _ _ (hi.tail.run (.route t)) ⟨hi.mem, by decide⟩ h4
          have m2 := mo (.point nt) _ _ _ m1.2 hi.mem h
          exact (after_err fi mo hi.tail ⟨hi.mem, by decide⟩ h4 (by omega)).elim
      · rw [if_neg hf] at h
        obtain ⟨_, h1, as, hr, h3⟩ := after fi mo hi.tail (a := .route t) (c := .point nt) hi.mem trivial h hl
        exact fin _ as hr ((item (q := .route) (by simp [Phase.allows, hb, isFixed_eq, hf])).1 hb) h1 h3
    all_goals errA

theorem f_dct (h : step call (.dct t) ⟨e, ts⟩ = .ok ((), s)) : Fin e ts (.dct t) s := by
  rw [step_dct call t e ts hi.ne] at h
  cases ts with
  | nil =>
    obtain ⟨rfl, hn⟩ := ret_act h hl
    exact ⟨rfl, [.plain t], ⟨[], rfl, .stop _⟩, rfl⟩
  | cons nt ts =>
    have h2 := two_push (a := .plain t) rfl hi.ne
    have fin : ∀ c as, Reads ((Act.plain t).run e) ts c as → (Reads ((Act.plain t).run e) ts c as → Run .dct (nt :: ts) as) →
        s.toks = [] → s.ers = runs as ((Act.plain t).run e) → Fin e (nt :: ts) (.dct t) s := by
      intro c as hr hf h1 h3
      exact ⟨h1, .plain t :: as, ⟨as, rfl, hf hr⟩, h3⟩
    dsimp only at h
    cases hb : nt.base <;> rw [hb] at h <;> dsimp only at h
    case TRUNCATE =>
      obtain ⟨_, h1, as, hr, h3⟩ := after fi mo hi.tail (a := .plain t) (c := .truncate) trivial trivial h hl
      exact fin _ as hr ((item (q := .dct) (by simp [Phase.allows, hb])).2.2.2.2.1 hb) h1 h3
    case C =>
      obtain ⟨_, h1, as, hr, h3⟩ := after fi mo hi.tail (a := .plain t) (c := .cruiseClimbC nt) ⟨hi.mem, hb⟩ h2 h hl
      exact fin _ as hr ((item (q := .dct) (by simp [Phase.allows, hb])).2.2.2.2.2.2.2.1 hb) h1 h3
    case POINT =>
      obtain ⟨_, h1, as, hr, h3⟩ := after fi mo hi.tail (a := .plain t) (c := .point nt) hi.mem trivial h hl
      exact fin _ as hr ((item (q := .dct) (by simp [Phase.allows, hb])).1 hb) h1 h3
    all_goals errA

theorem f_sid (h : step call (.sid t) ⟨e, ts⟩ = .ok ((), s)) : Fin e ts (.sid t) s := by
  rw [step_sid call t e ts hi.ne] at h
  split at h
  · rename_i h1
    obtain ⟨_, h2, as, hr, h3⟩ := after fi mo hi (a := .sid t) (c := .postSid) trivial (two_push rfl hi.ne) h hl
    exact ⟨h2, .sid t :: as, ⟨h1, as, rfl, hr⟩, h3⟩
  · exact (after_err fi mo hi ⟨ht, by decide⟩ h hl).elim

theorem f_sidStar (h : step call (.sidStar t) ⟨e, ts⟩ = .ok ((), s)) : Fin e ts (.sidStar t) s := by
  rw [step_sidStar call t e ts hi.ne] at h
  split at h
  · rename_i h1
    obtain ⟨_, h2, as, hr, h3⟩ := after fi mo hi (a := .sid t) (c := .postSid) trivial (two_push rfl hi.ne) h hl
    exact ⟨h2, .sid t :: as, .inl ⟨h1, as, rfl, hr⟩, h3⟩
  · rename_i h1
    cases ts with
    | nil =>
      obtain ⟨rfl, hn⟩ := ret_act h hl
      exact ⟨rfl, [.star t], .inr ⟨h1, rfl, rfl⟩, rfl⟩
    | cons pk ts => exact (after_err fi mo hi ⟨hi.mem, by decide⟩ h hl).elim

theorem f_star (h : step call (.star t) ⟨e, ts⟩ = .ok ((), s)) : Fin e ts (.star t) s := by
  rw [step_star call t e ts hi.ne] at h
  cases ts with
  | nil =>
    obtain ⟨rfl, hn⟩ := ret_act h hl
    exact ⟨rfl, [.star t], ⟨rfl, rfl⟩, rfl⟩
  | cons pk ts => exact (after_err fi mo hi ⟨hi.mem, by decide⟩ h hl).elim

theorem f_stay (h2 : 2 ≤ e.recs.length) (h : step call (.stay t) ⟨e, ts⟩ = .ok ((), s)) : Fin e ts (.stay t) s := by
  rw [step_stay call t e ts] at h
  cases ts with
  | nil => errN
  | cons nt ts =>
    dsimp only at h
    split at h
    · exact (no_err fi mo hi.tail (t := nt) ⟨hi.mem, by decide⟩ hi.tail h hl).elim
    · rename_i hs
      cases ts with
      | nil => exact (no_err fi mo hi.tail (t := nt) ⟨hi.mem, by decide⟩ hi.tail h hl).elim
      | cons m ts =>
        dsimp only at h
        split at h
        · exact (no_err fi mo hi.tail.tail (t := m) ⟨hi.tail.mem, by decide⟩ hi.tail.tail h hl).elim
        · rename_i hm
          have hs : nt.base = .SLASH := Decidable.byContradiction hs
          have hm : m.base = .STAY_TIME := Decidable.byContradiction hm
          obtain ⟨h1, as, ⟨b, rfl, hr⟩, h3⟩ := fi (.stayTime m) _ _ _ hi.tail.tail ⟨hi.tail.mem, hm⟩ h2 h hl
          exact ⟨h1, _, ⟨nt, m, ts, b, rfl, hs, hm, rfl, hr⟩, h3⟩

theorem f_stayTime (h2 : 2 ≤ e.recs.length) (hm : t.base = .STAY_TIME) (h : step call (.stayTime t) ⟨e, ts⟩ = .ok ((), s)) :
    Fin e ts (.stayTime t) s := by
  rw [step_stayTime call t (stay_facts (hT t ht) hm) e ts hi.ne] at h
  cases ts with
  | nil =>
    obtain ⟨rfl, hn⟩ := ret_act h hl
    exact ⟨rfl, [.stay t], ⟨[], rfl, .stop _⟩, rfl⟩
  | cons nt ts =>
    have h2 := two_note (a := .stay t) rfl hi.ne h2
    have fin : ∀ c as, Reads ((Act.stay t).run e) ts c as → (Reads ((Act.stay t).run e) ts c as → Run .stay (nt :: ts) as) →
        s.toks = [] → s.ers = runs as ((Act.stay t).run e) → Fin e (nt :: ts) (.stayTime t) s := by
      intro c as hr hf h1 h3
      exact ⟨h1, .stay t :: as, ⟨as, rfl, hf hr⟩, h3⟩
    dsimp only at h
    cases hb : nt.base <;> rw [hb] at h <;> dsimp only at h
    case BREAK_END => exact (after_bee fi mo hi.tail hi.mem hb h hl).elim
    case BREAK_START =>
      obtain ⟨_, h1, as, hr, h3⟩ := after fi mo hi.tail (a := .stay t) (c := .breakStart nt) ⟨hi.mem, hb⟩ h2 h hl
      exact fin _ as hr ((item (q := .stay) (by simp [Phase.allows, hb])).2.2.2.2.2.2.1 hb) h1 h3
    case DCT =>
      obtain ⟨_, h1, as, hr, h3⟩ := after fi mo hi.tail (a := .stay t) (c := .dct nt) ⟨hi.mem, hb⟩ trivial h hl
      exact fin _ as hr ((item (q := .stay) (by simp [Phase.allows, hb])).2.2.1 hb) h1 h3
    case TRUNCATE =>
      obtain ⟨_, h1, as, hr, h3⟩ := after fi mo hi.tail (a := .stay t) (c := .truncate) trivial trivial h hl
      exact fin _ as hr ((item (q := .stay) (by simp [Phase.allows, hb])).2.2.2.2.1 hb) h1 h3
    case C =>
      obtain ⟨_, h1, as, hr, h3⟩ := after fi mo hi.tail (a := .stay t) (c := .cruiseClimbC nt) ⟨hi.mem, hb⟩ h2 h hl
      exact fin _ as hr ((item (q := .stay) (by simp [Phase.allows, hb])).2.2.2.2.2.2.2.1 hb) h1 h3
    case POINT =>
      obtain ⟨_, h1, as, hr, h3⟩ := after fi mo hi.tail (a := .stay t) (c := .point nt) hi.mem trivial h hl
      exact fin _ as hr ((item (q := .stay) (by simp [Phase.allows, hb])).1 hb) h1 h3
    case ROUTE =>
      obtain ⟨_, h1, as, hr, h3⟩ := after fi mo hi.tail (a := .stay t) (c := .route nt) ⟨hi.mem, hb⟩ h2 h hl
      exact fin _ as hr ((item (q := .stay) (by simp [Phase.allows, hb])).2.1 hb) h1 h3
    case SID_STAR =>
      obtain ⟨_, h1, as, hr, h3⟩ := after fi mo hi.tail (a := .stay t) (c := .sidStar nt) ⟨hi.mem, hb⟩ trivial h hl
      exact fin _ as hr ((item (q := .stay) (by simp [Phase.allows, hb])).2.2.2.2.2.2.2.2 hb (by decide) h2) h1 h3
    case STAR =>
      obtain ⟨_, h1, as, hr, h3⟩ := after fi mo hi.tail (a := .stay t) (c := .star nt) ⟨hi.mem, hb⟩ trivial h hl
      exact fin _ as hr ((item (q := .stay) (by simp [Phase.allows, hb])).2.2.2.1 hb) h1 h3
    case SID =>
      obtain ⟨_, h1, as, hr, h3⟩ := after fi mo hi.tail (a := .stay t) (c := .sid nt) ⟨hi.mem, hb⟩ trivial h hl
      have := hr.1; omega
    all_goals errA

end

section
variable {call : Call → ML F Unit} (fi : FIH T call) (mo : Mono T call) (hT : ∀ t ∈ T, Typed t)
variable {e : Ers F} {ts : List Token} {s : St (List Token) F} (hi : Inv T e ts)
variable (hl : s.ers.errs.length ≤ e.errs.length)
include fi mo hT hi hl

theorem f_truncate (h : step call .truncate ⟨e, ts⟩ = .ok ((), s)) : Fin e ts .truncate s := by
  rw [step_truncate call e ts] at h
  cases ts with
  | nil => obtain rfl := done_inj h; exact ⟨rfl, [], ⟨rfl, rfl⟩, rfl⟩
  | cons nt ts => exact (no_err fi mo hi.tail (t := nt) ⟨hi.mem, by decide⟩ hi.tail h hl).elim

theorem f_postSid (h2 : 2 ≤ e.recs.length) (h : step call .postSid ⟨e, ts⟩ = .ok ((), s)) : Fin e ts .postSid s := by
  rw [step_postSid call e ts] at h
  cases ts with
  | nil => obtain rfl := done_inj h; exact ⟨rfl, [], .stop _, rfl⟩
  | cons nt ts =>
    dsimp only at h
    cases hb : nt.base <;> rw [hb] at h <;> dsimp only at h
    case TRUNCATE =>
      obtain ⟨h1, as, hr, h3⟩ := fi .truncate _ _ _ hi.tail trivial trivial h hl
      exact ⟨h1, as, (item (q := .sid) (by simp [Phase.allows, hb])).2.2.2.2.1 hb hr, h3⟩
    case POINT =>
      obtain ⟨h1, as, hr, h3⟩ := fi (.point nt) _ _ _ hi.tail hi.mem trivial h hl
      exact ⟨h1, as, (item (q := .sid) (by simp [Phase.allows, hb])).1 hb hr, h3⟩
    case ROUTE =>
      obtain ⟨h1, as, hr, h3⟩ := fi (.route nt) _ _ _ hi.tail ⟨hi.mem, hb⟩ h2 h hl
      exact ⟨h1, as, (item (q := .sid) (by simp [Phase.allows, hb])).2.1 hb hr, h3⟩
    case SID_STAR =>
      obtain ⟨h1, as, hr, h3⟩ := fi (.sidStar nt) _ _ _ hi.tail ⟨hi.mem, hb⟩ trivial h hl
      exact ⟨h1, as, (item (q := .sid) (by simp [Phase.allows, hb])).2.2.2.2.2.2.2.2 hb (by decide) h2 hr, h3⟩
    case STAR =>
      obtain ⟨h1, as, hr, h3⟩ := fi (.star nt) _ _ _ hi.tail ⟨hi.mem, hb⟩ trivial h hl
      exact ⟨h1, as, (item (q := .sid) (by simp [Phase.allows, hb])).2.2.2.1 hb hr, h3⟩
    all_goals exact (no_err fi mo hi.tail (t := nt) ⟨hi.mem, by decide⟩ hi.tail h hl).elim

variable {t : Token} (ht : t ∈ T)
include ht

theorem f_postPoint (h2 : 2 ≤ e.recs.length) (h : step call (.postPoint t) ⟨e, ts⟩ = .ok ((), s)) :
    Fin e ts (.postPoint t) s := by
  rw [step_postPoint call t e ts hi.ne, headSub_eq hi.ne] at h
  cases hb : t.base <;> rw [hb] at h <;> dsimp only at h
  case BREAK_END => exact (no_bee fi mo hi ht hb h hl).elim
  case SLASH =>
    obtain ⟨h1, as, hr, h3⟩ := fi (.forwardSlash t) _ _ _ hi ht h2 h hl
    refine ⟨h1, as, ?_, h3⟩
    obtain ⟨l, ts', b, rfl, ⟨hl, rfl, hn, hr⟩ | ⟨hl, rfl, hr⟩⟩ := hr
    · exact RunG.level hb hl (fun _ => hn) hr
    · exact RunG.vfr hb hl hr
  case BREAK_START =>
    obtain ⟨h1, as, hr, h3⟩ := fi (.breakStart t) _ _ _ hi ⟨ht, hb⟩ h2 h hl
    exact ⟨h1, as, (item (q := .point _) (by simp [Phase.allows, hb])).2.2.2.2.2.2.1 hb hr, h3⟩
  case DCT =>
    obtain ⟨h1, as, hr, h3⟩ := fi (.dct t) _ _ _ hi ⟨ht, hb⟩ trivial h hl
    exact ⟨h1, as, (item (q := .point _) (by simp [Phase.allows, hb])).2.2.1 hb hr, h3⟩
  case STAY =>
    obtain ⟨h1, as, hr, h3⟩ := fi (.stay t) _ _ _ hi ht h2 h hl
    exact ⟨h1, as, (item (q := .point _) (by simp [Phase.allows, hb])).2.2.2.2.2.1 hb hr, h3⟩
  case TRUNCATE =>
    obtain ⟨h1, as, hr, h3⟩ := fi .truncate _ _ _ hi trivial trivial h hl
    exact ⟨h1, as, (item (q := .point _) (by simp [Phase.allows, hb])).2.2.2.2.1 hb hr, h3⟩
  case C =>
    obtain ⟨h1, as, hr, h3⟩ := fi (.cruiseClimbC t) _ _ _ hi ⟨ht, hb⟩ h2 h hl
    exact ⟨h1, as, (item (q := .point _) (by simp [Phase.allows, hb])).2.2.2.2.2.2.2.1 hb hr, h3⟩
  case POINT =>
    obtain ⟨h1, as, hr, h3⟩ := fi (.point t) _ _ _ hi ht trivial h hl
    exact ⟨h1, as, (item (q := .point _) (by simp [Phase.allows, hb])).1 hb hr, h3⟩
  case ROUTE =>
    split at h
    · errN
    · rename_i hf
      obtain ⟨h1, as, hr, h3⟩ := fi (.route t) _ _ _ hi ⟨ht, hb⟩ h2 h hl
      exact ⟨h1, as, (item (q := .point _) (by simp [Phase.allows, hb, hf])).2.1 hb hr, h3⟩
  case SID_STAR =>
    obtain ⟨h1, as, hr, h3⟩ := fi (.sidStar t) _ _ _ hi ⟨ht, hb⟩ trivial h hl
    exact ⟨h1, as, (item (q := .point _) (by simp [Phase.allows, hb])).2.2.2.2.2.2.2.2 hb (by simp) h2 hr, h3⟩
  case STAR =>
    obtain ⟨h1, as, hr, h3⟩ := fi (.star t) _ _ _ hi ⟨ht, hb⟩ trivial h hl
    exact ⟨h1, as, (item (q := .point _) (by simp [Phase.allows, hb])).2.2.2.1 hb hr, h3⟩
  case SID =>
    obtain ⟨h1, as, hr, h3⟩ := fi (.sid t) _ _ _ hi ⟨ht, hb⟩ trivial h hl
    have := hr.1; omega
  all_goals errN

theorem f_postAdep (h1 : e.recs.length = 1) (h : step call (.postAdep t) ⟨e, ts⟩ = .ok ((), s)) :
    Fin e ts (.postAdep t) s := by
  change postAdep call t ⟨e, ts⟩ = _ at h
  unfold postAdep at h
  cases hb : t.base <;> rw [hb] at h <;> dsimp only at h
  case DCT =>
    obtain ⟨h1, as, hr, h3⟩ := fi (.dct t) _ _ _ hi ⟨ht, hb⟩ trivial h hl
    exact ⟨h1, as, (item (q := .adep) (by simp [Phase.allows, hb])).2.2.1 hb hr, h3⟩
  case TRUNCATE =>
    obtain ⟨h1, as, hr, h3⟩ := fi .truncate _ _ _ hi trivial trivial h hl
    exact ⟨h1, as, (item (q := .adep) (by simp [Phase.allows, hb])).2.2.2.2.1 hb hr, h3⟩
  case POINT =>
    obtain ⟨h1, as, hr, h3⟩ := fi (.point t) _ _ _ hi ht trivial h hl
    exact ⟨h1, as, (item (q := .adep) (by simp [Phase.allows, hb])).1 hb hr, h3⟩
  case SID_STAR =>
    obtain ⟨h4, as, hr, h3⟩ := fi (.sidStar t) _ _ _ hi ⟨ht, hb⟩ trivial h hl
    refine ⟨h4, as, ?_, h3⟩
    rcases hr with ⟨_, b, rfl, hr⟩ | ⟨hn, _⟩
    · exact RunG.sid (.inr hb) hr
    · exact absurd h1 hn
  case SID =>
    obtain ⟨h4, as, ⟨_, b, rfl, hr⟩, h3⟩ := fi (.sid t) _ _ _ hi ⟨ht, hb⟩ trivial h hl
    exact ⟨h4, _, RunG.sid (.inl hb) hr, h3⟩
  case STAR =>
    obtain ⟨h1, as, hr, h3⟩ := fi (.star t) _ _ _ hi ⟨ht, hb⟩ trivial h hl
    exact ⟨h1, as, (item (q := .adep) (by simp [Phase.allows, hb])).2.2.2.1 hb hr, h3⟩
  all_goals errN

theorem f_slash (h2 : 2 ≤ e.recs.length) (h : step call (.forwardSlash t) ⟨e, ts⟩ = .ok ((), s)) :
    Fin e ts (.forwardSlash t) s := by
  rw [step_slash call t e ts] at h
  cases ts with
  | nil => errN
  | cons nt ts =>
    dsimp only at h
    cases hb : nt.base <;> rw [hb] at h <;> dsimp only at h
    case SPEED_VFR =>
      obtain ⟨h1, as, ⟨b, rfl, hr⟩, h3⟩ := fi (.assignSpeedVfr nt) _ _ _ hi.tail ⟨hi.mem, hb⟩ trivial h hl
      exact ⟨h1, _, ⟨nt, ts, b, rfl, .inr ⟨hb, rfl, hr⟩⟩, h3⟩
    case SPEED_ALTITUDE =>
      obtain ⟨h1, as, ⟨b, rfl, hn, hr⟩, h3⟩ := fi (.assignSpeedAltitude nt) _ _ _ hi.tail ⟨hi.mem, hb⟩ trivial h hl
      rw [if_neg (by omega)] at hr
      exact ⟨h1, _, ⟨nt, ts, b, rfl, .inl ⟨hb, rfl, hn, hr⟩⟩, h3⟩
    all_goals exact (no_err fi mo hi.tail (t := nt) ⟨hi.mem, by decide⟩ hi.tail h hl).elim

theorem f_level (hb : t.base = .SPEED_ALTITUDE) (h : step call (.assignSpeedAltitude t) ⟨e, ts⟩ = .ok ((), s)) :
    Fin e ts (.assignSpeedAltitude t) s := by
  rw [step_level call t (hT t ht) hb e ts hi.ne] at h
  cases ts with
  | nil =>
    obtain ⟨rfl, hn⟩ := ret_act h hl
    exact ⟨rfl, [.level t], ⟨[], rfl, hn, .stop _⟩, rfl⟩
  | cons nt ts =>
    dsimp only at h
    have hlen := (run_note (a := .level t) rfl hi.ne).1
    split at h
    · rename_i h1
      obtain ⟨hn, h2, as, hr, h3⟩ := after fi mo hi.tail (a := .level t) (c := .postAdep nt) hi.mem (hlen.trans h1) h hl
      refine ⟨h2, .level t :: as, ⟨as, rfl, hn, ?_⟩, h3⟩
      rw [if_pos h1]; exact hr
    · rename_i h1
      have : 2 ≤ ((Act.level t).run e).recs.length := by
        rw [hlen]; have := List.length_pos_iff.2 hi.ne; omega
      obtain ⟨hn, h2, as, hr, h3⟩ := after fi mo hi.tail (a := .level t) (c := .postPoint nt) hi.mem this h hl
      refine ⟨h2, .level t :: as, ⟨as, rfl, hn, ?_⟩, h3⟩
      have hr : Run (.point (isLlOrBd (headSub _))) (nt :: ts) as := hr
      rw [headSub_note rfl hi.ne] at hr
      rw [if_neg h1]; exact hr

theorem f_levelsK {a : Act} (h2 : 2 ≤ e.recs.length) (hr : a.records = false) (hc : a.nums = [] → ClimbAct t a)
    (h : levelsK call a e ts = .ok ((), s)) :
    s.toks = [] ∧ ∃ as, (∃ a b, ClimbAct t a ∧ as = a :: b ∧ Run (.point (isLlOrBd (headSub e))) ts b) ∧ s.ers = runs as e := by
  unfold levelsK at h
  cases ts with
  | nil =>
    obtain ⟨rfl, hn⟩ := ret_act h hl
    exact ⟨rfl, [a], ⟨a, [], hc hn, rfl, .stop _⟩, rfl⟩
  | cons nt ts =>
    obtain ⟨hn, h1, as, hrr, h3⟩ := after fi mo hi.tail (a := a) (c := .postPoint nt) hi.mem (two_note hr hi.ne h2) h hl
    refine ⟨h1, a :: as, ⟨a, as, hc hn, rfl, ?_⟩, h3⟩
    have hrr : Run (.point (isLlOrBd (headSub _))) (nt :: ts) as := hrr
    rw [headSub_note hr hi.ne] at hrr
    exact hrr

theorem f_levels (h2 : 2 ≤ e.recs.length) (hb : t.base = .SPEED_ALTITUDE_ALTITUDE)
    (h : step call (.assignSpeedAltitudeAltitude t) ⟨e, ts⟩ = .ok ((), s)) :
    Fin e ts (.assignSpeedAltitudeAltitude t) s := by
  by_cases hbad : t.sub ∈ ccBad
  · rw [step_levels_bad call t (hT t ht) hbad e ts hi.ne] at h; cases h
  · rw [step_levels call t (hT t ht) hb hbad e ts hi.ne] at h
    exact f_levelsK fi mo hT hi hl ht h2 rfl (fun hn => .inl ⟨hb, hbad, rfl, fun _ => hn⟩) h

theorem f_plus (h2 : 2 ≤ e.recs.length) (hb : t.base = .SPEED_ALTITUDE_PLUS)
    (h : step call (.assignSpeedAltitudePlus t) ⟨e, ts⟩ = .ok ((), s)) :
    Fin e ts (.assignSpeedAltitudePlus t) s := by
  rw [step_plus call t (hT t ht) hb e ts hi.ne] at h
  exact f_levelsK fi mo hT hi hl ht h2 rfl (fun hn => .inr ⟨hb, rfl, fun _ => hn⟩) h

theorem f_vfr (hb : t.base = .SPEED_VFR) (h : step call (.assignSpeedVfr t) ⟨e, ts⟩ = .ok ((), s)) :
    Fin e ts (.assignSpeedVfr t) s := by
  rw [step_vfr call t (hT t ht) hb e ts hi.ne] at h
  cases ts with
  | nil =>
    obtain ⟨rfl, hn⟩ := ret_act h hl
    exact ⟨rfl, [.vfr t], ⟨[], rfl, .stop _⟩, rfl⟩
  | cons nt ts =>
    obtain ⟨hn, h2, as, hr, h3⟩ := after fi mo hi.tail (a := .vfr t) (c := .breakTextSave nt) hi.suf (two_push rfl hi.ne) h hl
    refine ⟨h2, .vfr t :: as, ⟨as, rfl, ?_⟩, h3⟩
    have hr : Run (.text (headRules _)) (nt :: ts) as := hr
    rw [headRules_vfr hi.ne] at hr
    exact hr

theorem f_breakStart (hb : t.base = .BREAK_START) (h : step call (.breakStart t) ⟨e, ts⟩ = .ok ((), s)) :
    Fin e ts (.breakStart t) s := by
  rw [step_breakStart call t e ts hi.ne] at h
  cases ts with
  | nil =>
    obtain ⟨rfl, hn⟩ := ret_act h hl
    exact ⟨rfl, [.brk t], ⟨[], rfl, .stop _⟩, rfl⟩
  | cons nt ts =>
    dsimp only at h
    split at h
    · errA
    · obtain ⟨hn, h2, as, hr, h3⟩ := after fi mo hi.tail (a := .brk t) (c := .breakTextSave nt) hi.suf (two_push rfl hi.ne) h hl
      refine ⟨h2, .brk t :: as, ⟨as, rfl, ?_⟩, h3⟩
      have hr : Run (.text (headRules _)) (nt :: ts) as := hr
      rw [headRules_brk (hT t ht) hb hi.ne] at hr
      exact hr

end
end F15
