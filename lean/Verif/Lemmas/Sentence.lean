import Verif.Lemmas.Numbers
/-!
# Accepted field 15s
-/

namespace F15
open Spec

set_option linter.unusedSectionVars false
variable {F : Type} [PyFloat F]

/-- A complete field 15 with its actions. -/
inductive SentRunG (c : Prop) : List Token → List Act → Prop
  | ifr {t ts as} (hb : t.base = .SPEED_ALTITUDE) (hl : c → (Act.level t).nums = []) (hne : ts ≠ []) (h : RunG c .adep ts as) :
      SentRunG c (t :: ts) (.level t :: as)
  | vfr {t ts as} (hb : t.base = .SPEED_VFR) (h : RunG c (.text (py! "VFR")) ts as) : SentRunG c (t :: ts) (.vfr t :: as)

/-- Without wrong numbers. -/
abbrev SentRun (ts : List Token) (as : List Act) : Prop := SentRunG True ts as

theorem SentRunG.clean {ts : List Token} {as : List Act} (h : SentRun ts as) : ∀ a ∈ as, a.nums = [] := by
  cases h with
  | ifr hb hl hne h =>
    intro a ha
    rcases List.mem_cons.1 ha with rfl | ha
    · exact hl trivial
    · exact h.clean a ha
  | vfr hb h =>
    intro a ha
    rcases List.mem_cons.1 ha with rfl | ha
    · rfl
    · exact h.clean a ha

theorem sentence_iff {ts : List Token} (hT : ∀ t ∈ ts, Typed t) : Sentence ts ↔ ∃ as, SentRun ts as := by
  constructor
  · rintro (⟨hb, hl, hne, h⟩ | ⟨hb, h⟩)
    · obtain ⟨as, h⟩ := accepts_run h fun x hx => hT x (by simp [hx])
      exact ⟨_, .ifr hb (fun _ => (levelOk_iff (hT _ (by simp)) hb).1 hl) hne h⟩
    · obtain ⟨as, h⟩ := accepts_run h fun x hx => hT x (by simp [hx])
      exact ⟨_, .vfr hb h⟩
  · rintro ⟨as, ⟨hb, hl, hne, h⟩ | ⟨hb, h⟩⟩
    · exact .ifr hb ((levelOk_iff (hT _ (by simp)) hb).2 (hl trivial)) hne (run_accepts h fun x hx => hT x (by simp [hx]))
    · exact .vfr hb (run_accepts h fun x hx => hT x (by simp [hx]))

theorem errs_fin (e : Ers F) (t : Token) : (finErs (post t e)).errs = e.errs := by
  unfold finErs post; split <;> rfl

/-- Accepted: the run follows the grammar. -/
theorem accepted_run {frames : Nat} {e : Ers F} (he : e.recs.length = 1) {t : Token} {rest : List Token}
    (hT : ∀ x ∈ t :: rest, Typed x) {e' : Ers F} (h : runL frames e t rest = .ok e') (hl : e'.errs.length ≤ e.errs.length) :
    ∃ as, SentRun (t :: rest) as ∧ e' = post t (runs as e) := by
  have hne : e.recs ≠ [] := by intro h; rw [h] at he; cases he
  have fi := fih_exec (F := F) hT frames
  have mo := mono_of (trace_exec (F := F) hT frames)
  have hi : Inv (t :: rest) e rest := ⟨hne, List.suffix_cons _ _⟩
  have ht : t ∈ t :: rest := by simp
  have bad : ∀ n, plainErr n = true → (match exec frames (.addErrorAndReSync t n) (⟨e, rest⟩ : St (List Token) F) with
      | .ok (_, s) => .ok s.ers | .error x => .error x : Except PyErr (Ers F)) = .ok e' → False := by
    intro n hn h
    cases h1 : exec frames (.addErrorAndReSync t n) (⟨e, rest⟩ : St (List Token) F) with
    | error x => rw [h1] at h; cases h
    | ok p =>
      rw [h1] at h
      cases h
      exact no_err fi mo hi ⟨ht, hn⟩ hi h1 hl
  unfold runL at h
  cases hb : t.base <;> rw [hb] at h <;> dsimp only at h
  case SPEED_VFR =>
    cases h1 : exec frames (.assignSpeedVfr t) (⟨e, rest⟩ : St (List Token) F) with
    | error x => rw [h1] at h; cases h
    | ok p =>
      rw [h1] at h
      have i1 := (mo (.assignSpeedVfr t) _ _ _ hi ⟨ht, hb⟩ h1).2
      dsimp only at h
      rw [setFirst_eq _ i1.ne] at h
      cases h
      obtain ⟨_, as, ⟨b, rfl, hr⟩, h2⟩ := fi (.assignSpeedVfr t) _ _ _ hi ⟨ht, hb⟩ trivial h1 hl
      refine ⟨_, .vfr hb hr, ?_⟩
      unfold post
      rw [if_pos hb, ← h2]
  case SPEED_ALTITUDE =>
    cases h1 : exec frames (.assignSpeedAltitude t) (⟨e, rest⟩ : St (List Token) F) with
    | error x => rw [h1] at h; cases h
    | ok p =>
      rw [h1] at h
      obtain ⟨m1, i1⟩ := mo (.assignSpeedAltitude t) _ _ _ hi ⟨ht, hb⟩ h1
      dsimp only at h
      by_cases hr : rest = []
      · rw [if_pos hr] at h
        exfalso
        cases h2 : exec frames (.addErrorAndReSync t 49) p.2 with
        | error x => rw [h2] at h; cases h
        | ok q =>
          rw [h2] at h
          cases h
          exact no_err fi mo i1 (e' := p.2.ers) ⟨ht, by decide⟩ i1 h2 (by omega)
      · rw [if_neg hr] at h
        cases h
        obtain ⟨_, as, ⟨b, rfl, hn, hrun⟩, h2⟩ := fi (.assignSpeedAltitude t) _ _ _ hi ⟨ht, hb⟩ trivial h1 hl
        rw [if_pos he] at hrun
        refine ⟨_, .ifr hb (fun _ => hn) hr hrun, ?_⟩
        unfold post
        rw [if_neg (by rw [hb]; decide), ← h2]
  all_goals exact (bad 1 (by decide) h).elim

/-- Sentences are read to their end. -/
theorem run_accepted {k : Prop} {e : Ers F} (he : e.recs.length = 1) {t : Token} {rest : List Token}
    (hT : ∀ x ∈ t :: rest, Typed x) {as : List Act} (h : SentRunG k (t :: rest) as) :
    ∃ frames, runL frames e t rest = .ok (post t (runs as e)) := by
  have hne : e.recs ≠ [] := by intro h; rw [h] at he; cases he
  cases h with
  | ifr hb hl hnr h =>
    rename_i as
    have hb' := (bwd h fun x hx => hT x (by simp [hx])) ((Act.level t).run e)
      ⟨Act.run_ne _ _ hne, (run_note (a := .level t) rfl hne).1.trans he⟩
    obtain ⟨n, hn⟩ := b_level (hT t (by simp)) hb hne false (by rw [if_pos he]; exact hb')
    refine ⟨n, ?_⟩
    unfold runL
    rw [hb]
    dsimp only
    rw [hn n (Nat.le_refl _)]
    dsimp only
    rw [if_neg hnr]
    unfold post
    rw [if_neg (by rw [hb]; decide)]; rfl
  | vfr hb h =>
    rename_i as
    have hb' := (bwd h fun x hx => hT x (by simp [hx])) ((Act.vfr t).run e)
      ⟨Act.run_ne _ _ hne, two_push rfl hne, headRules_vfr hne⟩
    obtain ⟨n, hn⟩ := b_vfr (hT t (by simp)) hb hne hb'
    refine ⟨n, ?_⟩
    unfold runL
    rw [hb]
    dsimp only
    rw [hn n (Nat.le_refl _)]
    dsimp only
    rw [setFirst_eq _ (runs_ne _ _ (Act.run_ne _ _ hne))]
    unfold post
    rw [if_pos hb]; rfl

/-- What acceptance means. -/
theorem accepted {frames : Nat} {e : Ers F} (he : e.recs.length = 1) (hx : e.errs = []) {ts : List Token}
    (hT : ∀ x ∈ ts, Typed x) {e' : Ers F} (h : parseL frames e ts = .ok (true, e')) :
    ∃ t rest as, ts = t :: rest ∧ SentRun ts as ∧ e' = finErs (post t (runs as e)) := by
  cases ts with
  | nil => cases h
  | cons t rest =>
    have hp := run_trace frames e (by intro h; rw [h] at he; cases he) t rest hT
    unfold parseL at h
    dsimp only at h
    cases hr : runL frames e t rest with
    | error x => rw [hr] at h; cases h
    | ok e1 =>
      rw [hr] at h hp
      obtain ⟨e2, ⟨ts2, hs⟩, rfl⟩ := hp
      have hne : e2.recs ≠ [] := (hs.invs ⟨Act.run_ne _ _ (by intro h; rw [h] at he; cases he), List.suffix_cons _ _⟩).ne
      dsimp only at h
      rw [finish_eq _ (post_ne t e2 hne)] at h
      simp only [Except.ok.injEq, Prod.mk.injEq, decide_eq_true_eq] at h
      obtain ⟨h1, rfl⟩ := h
      obtain ⟨as, hs, h2⟩ := accepted_run he hT hr (by rw [h1, hx]; exact Nat.le_refl _)
      exact ⟨t, rest, as, rfl, hs, by rw [h2]⟩

theorem sentence_parses {e : Ers F} (he : e.recs.length = 1) (hx : e.errs = []) {ts : List Token}
    (hT : ∀ x ∈ ts, Typed x) {as : List Act} (h : SentRun ts as) :
    ∃ frames t, ts.head? = some t ∧ parseL frames e ts = .ok (true, finErs (post t (runs as e))) := by
  have hne : e.recs ≠ [] := by intro h; rw [h] at he; cases he
  cases ts with
  | nil => cases h
  | cons t rest =>
    obtain ⟨n, hn⟩ := run_accepted he hT h
    refine ⟨n, t, rfl, ?_⟩
    unfold parseL
    dsimp only
    rw [hn]
    dsimp only
    rw [finish_eq _ (post_ne t _ (runs_ne _ _ hne))]
    have h1 : (post t (runs as e)).errs = [] := by
      have : (post t (runs as e)).errs = (runs as e).errs := by unfold post; split <;> rfl
      rw [this, runs_errs h.clean, hx]
    rw [h1]; rfl

/-- With wrong numbers: the parse returns. -/
theorem loose_parses {k : Prop} {e : Ers F} (he : e.recs.length = 1) {ts : List Token}
    (hT : ∀ x ∈ ts, Typed x) {as : List Act} (h : SentRunG k ts as) :
    ∃ frames t, ts.head? = some t ∧ parseL frames e ts = .ok (decide ((runs as e).errs = []), finErs (post t (runs as e))) := by
  have hne : e.recs ≠ [] := by intro h; rw [h] at he; cases he
  cases ts with
  | nil => cases h
  | cons t rest =>
    obtain ⟨n, hn⟩ := run_accepted he hT h
    refine ⟨n, t, rfl, ?_⟩
    unfold parseL
    dsimp only
    rw [hn]
    dsimp only
    rw [finish_eq _ (post_ne t _ (runs_ne _ _ hne))]
    have h1 : (post t (runs as e)).errs = (runs as e).errs := by unfold post; split <;> rfl
    rw [h1]

end F15
