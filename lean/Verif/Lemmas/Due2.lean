import Verif.Lemmas.Due
/-!
# Every error message is due: the methods
-/

namespace F15
open Spec

set_option linter.unusedSectionVars false
set_option linter.unusedSimpArgs false
variable {F : Type} [PyFloat F]

/-- Whatever is done after the reader has lost track is excused. -/
def Lost (T : List Token) (call : Call → ML F Unit) : Prop :=
  ∀ (e : Ers F) (c : Call) (pre : List Token) (t : Token) (ts : List Token), AllGood T e → e.recs ≠ [] → T = pre ++ t :: ts →
    Loose e.errs pre (t :: ts) → (∀ B, t ∈ B → t :: ts <:+ B → Pre B ts c) → Sure T e (call c ⟨e, ts⟩)

/-- A point refused before. -/
def LostPoint (T : List Token) (call : Call → ML F Unit) : Prop :=
  ∀ (e : Ers F) (u : Token) (pre : List Token) (t : Token) (ts : List Token), AllGood T e → e.recs ≠ [] → T = pre ++ t :: ts →
    Loose e.errs pre (t :: ts) → u ∈ T → Sure T e (call (.point u) ⟨e, t :: ts⟩)

theorem lost_exec {T : List Token} (hT : ∀ t ∈ T, Typed t) (n : Nat) : Lost (F := F) T (exec n) :=
  fun _ _ _ _ _ hg hn hp hl hc => lost_call hT hg hn hp hl hc

theorem lost_point {T : List Token} (hT : ∀ t ∈ T, Typed t) (n : Nat) : LostPoint (F := F) T (exec n) := by
  intro e u pre t ts hg hn hp hl hu
  cases n with
  | zero => intro e1 ts1 h; exact absurd h (by simp [exec])
  | succ n =>
    show Sure T e (step (exec n) (.point u) ⟨e, t :: ts⟩)
    rw [step_point _ u (hT u hu) e _ hn]
    refine Sound.act (.point u) ?_
    obtain ⟨a, b, hab⟩ := List.append_of_mem hu
    exact lost_call hT (hg.num hT (.point u) trivial hab) ((Act.point u).run_ne e hn) hp (hl.mono (run_keeps _ e)) fun B hB _ => hB

section
variable {T : List Token} {call : Call → ML F Unit} (ih : DIH T call)
variable {e : Ers F} {ts : List Token} (hg : AllGood T e) (hn : e.recs ≠ [])
include ih hg hn

theorem DIH.sure {c : Call} (hc : ∀ t, c ≠ .breakEnd t) (h : Ctx T e ts c) : Sure T e (call c ⟨e, ts⟩) := by
  refine (ih c e ts hg hn h).weaken fun e1 ts1 hx => ?_
  cases c
  case breakEnd t => exact absurd rfl (hc t)
  all_goals exact hx

/-- An error about the token just read. -/
theorem DIH.err {t : Token} {n : Nat} {p : List Token} (hp : T = p ++ t :: ts) (hc : Cx e p) (hpl : plainErr n = true)
    (hd : Due e.errs p t ts n) (hs : t.base = .SLASH → ¬ EndsIn [.STAY] p) :
    Sure T e (call (.addErrorAndReSync t n) ⟨e, ts⟩) := by
  refine ih.sure hg hn (by simp) ⟨hpl, ⟨p, ts, hp, hd⟩, p ++ [t], by simp [hp], by simp, fun _ => ⟨by simp, ?_, ?_⟩⟩
  · refine (Cx.note hn hc (.err t n) rfl).blame (blamed_rec (plainErr.isSome hpl) ?_)
    rw [run_errs]; simp [Act.nums, Act.tok]
  · rw [endsIn_two]
    exact fun h => hs h.2 h.1

/-- An error at the end of the text. -/
theorem DIH.errEnd (hts : ts = []) {t : Token} {n : Nat} {p q : List Token} (hp : T = p ++ t :: q) (hpl : plainErr n = true)
    (hd : Due e.errs p t q n) : Sure T e (call (.addErrorAndReSync t n) ⟨e, ts⟩) := by
  refine ih.sure hg hn (by simp) ⟨hpl, ⟨p, q, hp, hd⟩, T, by simp [hts], by simp [hp], fun h => absurd hts h⟩

/-- An error about the next token. -/
theorem DIH.errPeek {t : Token} {n : Nat} {p : List Token} (hp : T = p ++ t :: ts) (hc : Cx e p) (hpl : plainErr n = true)
    (hpn : p ≠ []) (hd : Due e.errs p t ts n) (hs : ¬ EndsIn [.STAY, .SLASH] p) :
    Sure T e (call (.addErrorAndReSync t n) ⟨e, t :: ts⟩) := by
  refine ih.sure hg hn (by simp) ⟨hpl, ⟨p, ts, hp, hd⟩, p, hp, by simp, fun _ => ⟨hpn, Cx.note hn hc (.err t n) rfl, hs⟩⟩

end

theorem At.next {T : List Token} {e : Ers F} {ts : List Token} {t u : Token} {p : List Token} (h : T = p ++ t :: u :: ts)
    (hc : Cx e (p ++ [t])) : At T e ts u (p ++ [t]) := ⟨by simp [h], by simp, hc⟩

/-- What stops an error about `/` from being followed by a time. -/
theorem noStay {p : List Token} {t : Token} (h : t.base ≠ .STAY) : ¬ EndsIn [.STAY] (p ++ [t]) := by
  rw [endsIn_one]; exact h

set_option hygiene false in
/-- Hand over the token `A` is about. -/
local macro "fin" : tactic => `(tactic| (first
  | exact Sound.ret hg hn
  | exact DIH.sure ih hg hn (by simp) ⟨hb, _, A⟩
  | exact DIH.sure ih hg hn (by simp) ⟨hb, _, A.eq⟩
  | exact DIH.sure ih hg hn (by simp) ⟨hb, _, _, A.eq, .inr ⟨rfl, A.ne, A.cx⟩⟩
  | exact DIH.sure ih hg hn (by simp) ⟨_, (by rw [A.eq, List.append_cons]), (by simp), (by rw [endsIn_one]; exact hb), A.cx.snoc (by rw [hb]; decide)⟩
  | exact DIH.err ih hg hn A.eq A.cx (by decide) (by simp [Due, hb, hq, endsIn_one, endsIn_two, lastIn_snoc, *]) (by simp [hb, endsIn_one, *])))

section
variable {T : List Token} {call : Call → ML F Unit} (ih : DIH T call) (lost : Lost T call) (lp : LostPoint T call) (hT : ∀ t ∈ T, Typed t)
variable {e : Ers F} {ts : List Token} (hg : AllGood T e) (hn : e.recs ≠ []) {t : Token} {p : List Token}
include ih hg hn

theorem du_err {n : Nat} (hc : Ctx T e ts (.addErrorAndReSync t n)) : Sure T e (step call (.addErrorAndReSync t n) ⟨e, ts⟩) := by
  obtain ⟨hpl, ⟨p, q, hp, hd⟩, pre, h1, h2, h3⟩ := hc
  have hb : Blamed ((Act.err t n).run e).errs t := blamed_rec (plainErr.isSome hpl) (by rw [run_errs]; simp [Act.nums, Act.tok])
  rw [step_err call t n (plainErr.isSome hpl) e ts hn]
  refine Sound.act (.err t n) ?_
  refine ih.sure (hg.run (.err t n) fun m hm => ?_) ((Act.err t n).run_ne e hn) (by simp)
    ⟨pre, h1, fun h => ⟨(h3 h).1, (h3 h).2.1, (h3 h).2.2, t, h2, hb⟩⟩
  simp [Act.nums] at hm; subst hm
  exact ⟨p, t, q, m, hp, rfl, plainErr.isSome hpl, .inl (hd.mono (run_keeps _ e))⟩

theorem du_postAdep (A : At T e ts t p) (hl : EndsIn [.SPEED_ALTITUDE] p) : Sure T e (step call (.postAdep t) ⟨e, ts⟩) := by
  show Sure T e (postAdep call t ⟨e, ts⟩)
  have hq := trivial
  have h1 : ¬ EndsIn [.STAY] p := endsIn_other hl (by decide)
  have h2 : ¬ EndsIn [.SLASH] p := endsIn_other hl (by decide)
  have h3 := not_endsIn_two (a := .STAY) h2
  unfold postAdep
  cases hb : t.base
  all_goals fin

theorem du_postPoint (A : At T e ts t p)
    (hl : LastIn [.POINT, .SPEED_ALTITUDE, .SPEED_ALTITUDE_ALTITUDE, .SPEED_ALTITUDE_PLUS] p) :
    Sure T e (step call (.postPoint t) ⟨e, ts⟩) := by
  have hq := trivial
  have h1 : ¬ EndsIn [.STAY] p := lastIn_endsIn hl (by decide)
  have h2 : ¬ EndsIn [.SLASH] p := lastIn_endsIn hl (by decide)
  have h3 := not_endsIn_two (a := .STAY) h2
  rw [step_postPoint call t e ts hn]
  cases hb : t.base
  case ROUTE =>
    dsimp only
    rw [headSub_eq hn]
    split
    · rename_i hf
      exact DIH.err ih hg hn A.eq A.cx (by decide) ⟨hb, A.cx.fix hf⟩ (by simp [hb])
    · fin
  all_goals fin

theorem du_truncate (hp : T = p ++ ts) (hl : EndsIn [.TRUNCATE] p) (hc : Cx e p) : Sure T e (step call .truncate ⟨e, ts⟩) := by
  rw [step_truncate]
  cases ts with
  | nil => fin
  | cons nt ts =>
    dsimp only
    exact DIH.err ih hg hn hp hc (by decide) hl fun _ => endsIn_other hl (by decide)

theorem du_postSid (hp : T = p ++ ts) (hpn : p ≠ []) (hl : LastIn [.SID, .SID_STAR] p) (hc : Cx e p) :
    Sure T e (step call .postSid ⟨e, ts⟩) := by
  rw [step_postSid]
  cases ts with
  | nil => fin
  | cons nt ts =>
    dsimp only
    have hq := trivial
    have A : At T e ts nt p := ⟨hp, hpn, hc⟩
    have h1 : ¬ EndsIn [.STAY] p := lastIn_endsIn hl (by decide)
    cases hb : nt.base
    all_goals fin

theorem du_slash (A : At T e ts t p) (ht : t.base = .SLASH) : Sure T e (step call (.forwardSlash t) ⟨e, ts⟩) := by
  rw [step_slash]
  cases ts with
  | nil => exact DIH.errEnd ih hg hn rfl A.eq (by decide) ⟨ht, rfl⟩
  | cons nt ts =>
    dsimp only
    have hq := trivial
    have hc := A.cx.snoc (t := t) (by rw [ht]; decide)
    have A := At.next A.eq hc
    cases hb : nt.base
    case SPEED_ALTITUDE => exact DIH.sure ih hg hn (by simp) ⟨hb, _, A.eq, A.cx⟩
    all_goals fin

theorem du_stay (A : At T e ts t p) (ht : t.base = .STAY) : Sure T e (step call (.stay t) ⟨e, ts⟩) := by
  rw [step_stay]
  cases ts with
  | nil => exact DIH.errEnd ih hg hn rfl A.eq (by decide) ⟨ht, rfl⟩
  | cons nt ts =>
    dsimp only
    have hc := A.cx.snoc (t := t) (by rw [ht]; decide)
    have A := At.next A.eq hc
    split
    · rename_i hs
      exact DIH.err ih hg hn A.eq A.cx (by decide) ⟨by rw [endsIn_one]; exact ht, hs⟩ fun h => absurd h hs
    · rename_i hs
      have hs := Decidable.not_not.1 hs
      cases ts with
      | nil => exact DIH.errEnd ih hg hn rfl A.eq (by decide) ⟨by rw [endsIn_one]; exact ht, hs, rfl⟩
      | cons nt2 ts =>
        dsimp only
        have hc := A.cx.snoc (t := nt) (by rw [hs]; decide)
        have A := At.next A.eq hc
        have h2 : EndsIn [.STAY, .SLASH] (p ++ [t] ++ [nt]) := by rw [endsIn_two, endsIn_one]; exact ⟨ht, hs⟩
        split
        · rename_i h
          exact DIH.err ih hg hn A.eq A.cx (by decide) ⟨h2, h⟩ fun _ => noStay (by rw [hs]; decide)
        · rename_i h
          exact DIH.sure ih hg hn (by simp) ⟨Decidable.not_not.1 h, _, A⟩

include hT

theorem du_breakEndError (A : At T e ts t p) (hb : t.base = .BREAK_END) : Sure T e (step call (.breakEndError t) ⟨e, ts⟩) := by
  show Sure T e (breakEndError call t ⟨e, ts⟩)
  unfold breakEndError
  have ht := breakEnd_sub (hT t (by rw [A.eq]; simp)) hb
  have sh := A.cx.shut
  rcases ht with h | h | h
  · rw [if_pos h]
    exact DIH.err ih hg hn A.eq A.cx (by decide) ⟨hb, h, sh⟩ (by simp [hb])
  · rw [if_neg (by simp [h]), if_pos h]
    exact DIH.err ih hg hn A.eq A.cx (by decide) ⟨hb, h, sh⟩ (by simp [hb])
  · rw [if_neg (by simp [h]), if_neg (by simp [h]), if_pos h]
    exact DIH.err ih hg hn A.eq A.cx (by decide) ⟨hb, h, sh⟩ (by simp [hb])

/-- An action that records the token just read. -/
theorem rcd_step {a : Act} (hr : a.records = true) (ok : a.NumOk) (A : At T e ts a.tok p)
    (ho : (a.tok.base ≠ .BREAK_START ∧ a.tok.base ≠ .SPEED_VFR) ∨ EndsIn [.C, .SLASH] p) :
    AllGood T (a.run e) ∧ (a.run e).recs ≠ [] ∧ Cx (a.run e) (p ++ [a.tok]) :=
  ⟨hg.num hT a ok A.eq, a.run_ne e hn, Cx.rcd hn A.cx.shut A.ne a hr ho (headSub_fixed hr hn)⟩

/-- An action that records nothing. -/
theorem note_step {a : Act} (hr : a.records = false) (ok : a.NumOk) (hp : T = p ++ a.tok :: ts) (hc : Cx e p) (hb : a.tok.base ∈ quiet) :
    AllGood T (a.run e) ∧ (a.run e).recs ≠ [] ∧ Cx (a.run e) (p ++ [a.tok]) :=
  ⟨hg.num hT a ok hp, a.run_ne e hn, (Cx.note hn hc a hr).snoc hb⟩

theorem du_point (hb : t.base = .POINT) {q : List Token} (hp : T = p ++ t :: q) (hc : ts = [] ∨ (q = ts ∧ p ≠ [] ∧ Cx e p)) :
    Sure T e (step call (.point t) ⟨e, ts⟩) := by
  rw [step_point call t (hT t (by rw [hp]; simp)) e ts hn]
  refine Sound.act (.point t) ?_
  have hg' := hg.num hT (.point t) trivial hp
  have hn' := (Act.point t).run_ne e hn
  cases ts with
  | nil => exact Sound.ret hg' hn'
  | cons nt ts =>
    rcases hc with hc | ⟨rfl, h1, h2⟩
    · cases hc
    dsimp only
    have hc := (rcd_step ih hT hg hn (a := .point t) rfl trivial ⟨hp, h1, h2⟩ (.inl (by simp [Act.tok, hb]))).2.2
    exact ih.sure hg' hn' (by simp) ⟨_, At.next hp hc, by rw [lastIn_snoc]; simp [Act.tok, hb]⟩

theorem du_dct (A : At T e ts t p) (ht : t.base = .DCT) : Sure T e (step call (.dct t) ⟨e, ts⟩) := by
  rw [step_dct call t e ts hn]
  refine Sound.act (.plain t) ?_
  obtain ⟨hg, hn, hc⟩ := rcd_step ih hT hg hn (a := .plain t) rfl trivial A (.inl (by simp [Act.tok, ht]))
  cases ts with
  | nil => fin
  | cons nt ts =>
    dsimp only
    have hq := trivial
    have A := At.next A.eq hc
    cases hb : nt.base
    all_goals fin

theorem du_sid (A : At T e ts t p) (ht : t.base = .SID) : Sure T e (step call (.sid t) ⟨e, ts⟩) := by
  rw [step_sid call t e ts hn]
  split
  · refine Sound.act (.sid t) ?_
    obtain ⟨hg, hn, hc⟩ := rcd_step ih hT hg hn (a := .sid t) rfl trivial A (.inl (by simp [Act.tok, ht]))
    exact ih.sure hg hn (by simp) ⟨p ++ [t], by simp [A.eq], by simp, by rw [lastIn_snoc]; simp [ht], hc⟩
  · rename_i hl
    have h2 : 2 ≤ p.length := by
      rcases A.cx.len with h | h
      · have := List.length_pos_iff.2 hn; omega
      · exact h
    refine Sound.act (.plain t) ?_
    have hg' := hg.num hT (.plain t) trivial A.eq
    have hn' := (Act.plain t).run_ne e hn
    have hc := (rcd_step ih hT hg hn (a := .plain t) rfl trivial A (.inl (by simp [Act.tok, ht]))).2.2
    refine ih.sure hg' hn' (by simp) ⟨by decide, ⟨p, ts, A.eq, ⟨ht, h2⟩⟩, p ++ [t], by simp [A.eq], by simp, fun _ =>
      ⟨by simp, Cx.note hn' hc (.err t 30) rfl, ?_⟩⟩
    rw [endsIn_two]; simp [ht]

theorem du_starTail (A : At T e ts t p) (ht : t.base = .STAR ∨ t.base = .SID_STAR) :
    Sure T e (match (generalizing := false) ts with
        | [] => done ((Act.star t).run e) []
        | pk :: ts => call (.addErrorAndReSync pk 34) ⟨(Act.plain t).run e, pk :: ts⟩) := by
  have ho : t.base ≠ .BREAK_START ∧ t.base ≠ .SPEED_VFR := by rcases ht with h | h <;> simp [h]
  cases ts with
  | nil => exact Sound.act (.star t) (.ret (hg.num hT (.star t) trivial A.eq) ((Act.star t).run_ne e hn))
  | cons pk ts =>
    refine Sound.act (.plain t) ?_
    obtain ⟨hg, hn, hc⟩ := rcd_step ih hT hg hn (a := .plain t) rfl trivial A (.inl ho)
    refine ih.errPeek hg hn (p := p ++ [t]) (by simp [A.eq]) hc (by decide) (by simp) ?_ ?_
    · show LastIn _ _
      rw [lastIn_snoc]; rcases ht with h | h <;> simp [h]
    · rw [endsIn_two]; rcases ht with h | h <;> simp [h]

theorem du_sidStar (A : At T e ts t p) (ht : t.base = .SID_STAR) : Sure T e (step call (.sidStar t) ⟨e, ts⟩) := by
  rw [step_sidStar call t e ts hn]
  split
  · refine Sound.act (.sid t) ?_
    obtain ⟨hg, hn, hc⟩ := rcd_step ih hT hg hn (a := .sid t) rfl trivial A (.inl (by simp [Act.tok, ht]))
    exact ih.sure hg hn (by simp) ⟨p ++ [t], by simp [A.eq], by simp, by rw [lastIn_snoc]; simp [ht], hc⟩
  · exact du_starTail ih hT hg hn A (.inr ht)

theorem du_star (A : At T e ts t p) (ht : t.base = .STAR) : Sure T e (step call (.star t) ⟨e, ts⟩) := by
  rw [step_star call t e ts hn]
  exact du_starTail ih hT hg hn A (.inl ht)

theorem du_stayTime (A : At T e ts t p) (ht : t.base = .STAY_TIME) : Sure T e (step call (.stayTime t) ⟨e, ts⟩) := by
  rw [step_stayTime call t (stay_facts (hT t (by rw [A.eq]; simp)) ht) e ts hn]
  refine Sound.act (.stay t) ?_
  obtain ⟨hg, hn, hc⟩ := note_step ih hT hg hn (a := .stay t) rfl trivial A.eq A.cx (by simp [Act.tok, ht, quiet])
  cases ts with
  | nil => fin
  | cons nt ts =>
    dsimp only
    have hq := trivial
    have A := At.next A.eq hc
    have ht' : (Act.stay t).tok.base = .STAY_TIME := ht
    cases hb : nt.base
    all_goals fin

theorem du_level (ht : t.base = .SPEED_ALTITUDE) (hp : T = p ++ t :: ts) (hc : Cx e p) :
    Sure T e (step call (.assignSpeedAltitude t) ⟨e, ts⟩) := by
  rw [step_level call t (hT t (by rw [hp]; simp)) ht e ts hn]
  refine Sound.act (.level t) ?_
  obtain ⟨hg, hn, hc⟩ := note_step ih hT hg hn (a := .level t) rfl ht hp hc (by simp [Act.tok, ht, quiet])
  cases ts with
  | nil => fin
  | cons nt ts =>
    dsimp only
    have A := At.next hp hc
    split
    · exact ih.sure hg hn (by simp) ⟨_, A, by rw [endsIn_one]; exact ht⟩
    · exact ih.sure hg hn (by simp) ⟨_, A, by rw [lastIn_snoc]; simp [Act.tok, ht]⟩

theorem du_levelsK {a : Act} (hr : a.records = false) (ok : a.NumOk) (A : At T e ts a.tok p)
    (hb : a.tok.base = .SPEED_ALTITUDE_ALTITUDE ∨ a.tok.base = .SPEED_ALTITUDE_PLUS) : Sure T e (levelsK call a e ts) := by
  refine Sound.act a ?_
  obtain ⟨hg, hn, hc⟩ := note_step ih hT hg hn (a := a) hr ok A.eq A.cx (by rcases hb with h | h <;> simp [h, quiet])
  unfold levelsK
  cases ts with
  | nil => fin
  | cons nt ts =>
    dsimp only
    have A := At.next A.eq hc
    exact ih.sure hg hn (by simp) ⟨_, A, by rw [lastIn_snoc]; rcases hb with h | h <;> simp [h]⟩

theorem du_levels (A : At T e ts t p) (hb : t.base = .SPEED_ALTITUDE_ALTITUDE) :
    Sure T e (step call (.assignSpeedAltitudeAltitude t) ⟨e, ts⟩) := by
  have ht := hT t (by rw [A.eq]; simp)
  by_cases hbad : t.sub ∈ ccBad
  · rw [step_levels_bad call t ht hbad e ts hn]
    intro e1 ts1 h; cases h
  · rw [step_levels call t ht hb hbad e ts hn]
    exact du_levelsK ih hT hg hn (a := .levels t) rfl ⟨hb, hbad⟩ A (.inl hb)

theorem du_plus (A : At T e ts t p) (hb : t.base = .SPEED_ALTITUDE_PLUS) :
    Sure T e (step call (.assignSpeedAltitudePlus t) ⟨e, ts⟩) := by
  rw [step_plus call t (hT t (by rw [A.eq]; simp)) hb e ts hn]
  exact du_levelsK ih hT hg hn (a := .plus t) rfl hb A (.inr hb)

theorem du_vfr (hp : T = p ++ t :: ts) (hb : t.base = .SPEED_VFR) : Sure T e (step call (.assignSpeedVfr t) ⟨e, ts⟩) := by
  have ht := hT t (by rw [hp]; simp)
  rw [step_vfr call t ht hb e ts hn]
  refine Sound.act (.vfr t) ?_
  have hg' := hg.num hT (.vfr t) trivial hp
  have hn' := (Act.vfr t).run_ne e hn
  cases ts with
  | nil => exact Sound.ret hg' hn'
  | cons nt ts =>
    exact ih.sure hg' hn' (by simp) ⟨headSub_text (a := .vfr t) rfl ht (by simp [Act.tok, hb]) hn, p ++ [t], by simp [hp], by simp⟩

theorem du_breakStart (hp : T = p ++ t :: ts) (hb : t.base = .BREAK_START) : Sure T e (step call (.breakStart t) ⟨e, ts⟩) := by
  have ht := hT t (by rw [hp]; simp)
  rw [step_breakStart call t e ts hn]
  refine Sound.act (.brk t) ?_
  have hg' := hg.num hT (.brk t) trivial hp
  have hn' := (Act.brk t).run_ne e hn
  have hs := headSub_text (a := .brk t) rfl ht (by simp [Act.tok, hb]) hn
  cases ts with
  | nil => exact Sound.ret hg' hn'
  | cons nt ts =>
    dsimp only
    split
    · rename_i hl
      have cx : Cx ((Act.err nt 4).run ((Act.brk t).run e)) (p ++ [t] ++ [nt]) := by
        refine ⟨noOpen_close (.inr hl), fun h => ?_, .inr (by simp)⟩
        rw [headSub_note rfl hn', hs] at h; cases h
      refine ih.sure hg' hn' (by simp) ⟨by decide, ⟨p ++ [t], ts, by simp [hp], hl⟩, p ++ [t] ++ [nt], by simp [hp], by simp,
        fun _ => ⟨by simp, cx, ?_⟩⟩
      rw [endsIn_two]; simp [hl]
    · exact ih.sure hg' hn' (by simp) ⟨hs, p ++ [t], by simp [hp], by simp⟩

theorem du_reSync (hp : T = p ++ ts)
    (hc : ts ≠ [] → p ≠ [] ∧ Cx e p ∧ ¬ EndsIn [.STAY, .SLASH] p ∧ ∃ u ∈ p ++ ts.take 1, Blamed e.errs u) :
    Sure T e (step call .reSync ⟨e, ts⟩) := by
  rw [step_reSync]
  cases ts with
  | nil => fin
  | cons nt ts =>
    dsimp only
    have hq := trivial
    obtain ⟨h1, h2, h3, u, hu, hbl⟩ := hc (by simp)
    have A : At T e ts nt p := ⟨hp, h1, h2⟩
    cases hb : nt.base
    case SPEED_ALTITUDE => exact DIH.sure ih hg hn (by simp) ⟨hb, _, A.eq, A.cx⟩
    case BREAK_END =>
      dsimp only
      have h := ih (.breakEnd nt) e ts hg hn ⟨hb, p, hp, h1, h2.snoc (by simp [hb, quiet])⟩
      intro e1 ts1 he
      obtain ⟨k1, k2, k3, pre, k4, k5⟩ := h e1 ts1 he
      refine ⟨k1, k2, k3, pre, k4, fun hne => ?_⟩
      rcases k5 hne with k5 | ⟨rfl, rfl, k5⟩
      · exact .inl k5
      · refine .inl ⟨p, nt, [], ?_, hb, by simpa using k5, u, ?_, hbl⟩
        · have : pre ++ ts1 = (p ++ [nt]) ++ ts1 := by rw [← k4, hp]; simp
          exact List.append_cancel_right this
        · simpa using hu
    case SLASH =>
      dsimp only
      cases ts with
      | nil => exact DIH.errEnd ih hg hn rfl A.eq (by decide) ⟨hb, rfl⟩
      | cons nt2 ts =>
        dsimp only
        have hs := hb
        have hc := A.cx.snoc (t := nt) (by rw [hb]; decide)
        have A := At.next A.eq hc
        cases hb : nt2.base
        case SPEED_ALTITUDE => exact DIH.sure ih hg hn (by simp) ⟨hb, _, A.eq, A.cx⟩
        all_goals fin
    all_goals fin

theorem du_C (A : At T e ts t p) (ht : t.base = .C) : Sure T e (step call (.cruiseClimbC t) ⟨e, ts⟩) := by
  rw [step_C call t e ts hn]
  obtain ⟨hg', hn', hc'⟩ := rcd_step ih hT hg hn (a := .plain t) rfl trivial A (.inl (by simp [Act.tok, ht]))
  have hc := A.cx.snoc (t := t) (by rw [ht]; decide)
  cases ts with
  | nil => exact Sound.act (.plain t) (.ret hg' hn')
  | cons nt ts =>
    dsimp only
    have hq := trivial
    have A' : At T ((Act.plain t).run e) ts nt (p ++ [t]) := At.next A.eq hc'
    have A := At.next A.eq hc
    cases hb : nt.base
    case SLASH =>
      dsimp only
      cases ts with
      | nil =>
        refine Sound.act (.plain t) ?_
        exact DIH.errEnd ih hg' hn' rfl A.eq (by decide) ⟨by rw [endsIn_one]; exact ht, hb, rfl⟩
      | cons nt2 ts =>
        dsimp only
        have hc := A.cx.snoc (t := nt) (by rw [hb]; decide)
        have A := At.next A.eq hc
        exact ih.sure hg hn (by simp) ⟨_, A, by rw [endsIn_two, endsIn_one]; exact ⟨ht, hb⟩⟩
    case UNKNOWN | SPEED_VFR | SPEED_ALTITUDE | BREAK_END | SPEED_ALTITUDE_ALTITUDE | SPEED_ALTITUDE_PLUS | TOO_LONG |
        STAY_TIME => fin
    all_goals
      refine Sound.act (.plain t) ?_
      clear A
      have A := A'
      have hg := hg'
      have hn := hn'
      fin

include lost

omit hg hn in
/-- After a call that may have lost track, the rest of the text is taken as points. -/
theorem du_endTail {e0 : Ers F} {r : Res F} (hr : Sure T e0 r) : Sure T e0 (andThen r (endTail call)) := by
  intro e2 ts2 h2
  cases r with
  | error x => cases h2
  | ok q =>
    obtain ⟨u, e1, ts1⟩ := q
    obtain ⟨k1, k2, k3, pre, k4, k5⟩ := hr e1 ts1 rfl
    change endTail call e1 ts1 = _ at h2
    unfold endTail at h2
    cases ts1 with
    | nil => cases h2; exact ⟨k1, k2, k3, pre, k4, fun h => absurd rfl h⟩
    | cons nt ts1 =>
      have hl := (k5 (by simp)).resolve_right id
      obtain ⟨a, b, c, d⟩ := lost e1 (.point nt) pre nt ts1 k1 k2 k4 hl (fun B hB _ => hB) e2 ts2 h2
      exact ⟨a, b, fun x hx => c x (k3 x hx), d⟩

include lp

omit hg hn in
theorem du_late {e0 : Ers F} {r : Res F} (hr : Sure T e0 r) {u : Token} (hu : u ∈ T) (hb : u.base = .POINT) :
    Sure T e0 (andThen r fun e ts => call (.point u) ⟨e, ts⟩) := by
  intro e2 ts2 h2
  cases r with
  | error x => cases h2
  | ok q =>
    obtain ⟨_, e1, ts1⟩ := q
    obtain ⟨k1, k2, k3, pre, k4, k5⟩ := hr e1 ts1 rfl
    change call (.point u) ⟨e1, ts1⟩ = _ at h2
    have hs : Sure T e1 (call (.point u) ⟨e1, ts1⟩) := by
      cases ts1 with
      | nil =>
        obtain ⟨a, b, hab⟩ := List.append_of_mem hu
        exact ih.sure k1 k2 (by simp) ⟨hb, a, b, hab, .inl rfl⟩
      | cons nt ts1 => exact lp e1 u pre nt ts1 k1 k2 k4 ((k5 (by simp)).resolve_right id) hu
    obtain ⟨a, b, c, d⟩ := hs e2 ts2 h2
    exact ⟨a, b, fun x hx => c x (k3 x hx), d⟩

theorem du_route (A : At T e ts t p) (ht : t.base = .ROUTE) : Sure T e (step call (.route t) ⟨e, ts⟩) := by
  rw [step_route call t e ts hn]
  refine Sound.act (.route t) ?_
  have hlen : 2 ≤ (p ++ [t]).length := by have := List.length_pos_iff.2 A.ne; simp; omega
  obtain ⟨hg, hn, hc⟩ := rcd_step ih hT hg hn (a := .route t) rfl trivial A (.inl (by simp [Act.tok, ht]))
  cases ts with
  | nil => fin
  | cons nt ts =>
    dsimp only
    have hq := trivial
    have A := At.next A.eq hc
    have ht' : (Act.route t).tok.base = .ROUTE := ht
    cases hb : nt.base
    case SID =>
      exact DIH.err ih hg hn A.eq A.cx (by decide) ⟨hb, hlen⟩ (by simp [hb])
    case POINT =>
      dsimp only
      split
      · rename_i hf
        exact du_late ih lost lp hT (DIH.err ih hg hn A.eq A.cx (n := 48) (by decide)
          ⟨by rw [endsIn_one]; exact ht, hb, by rw [isFixed_eq]; exact hf⟩ (by simp [hb])) (by rw [A.eq]; simp) hb
      · fin
    all_goals fin

theorem du_vToI {q sl sp : Token} (hp : T = p ++ q :: sl :: sp :: ts) (hpn : p ≠ []) (hc : Cx e p) (hb : q.base = .POINT)
    (hsl : sl.base = .SLASH) (hsp : sp.base = .SPEED_ALTITUDE) : Sure T e (step call .vToI ⟨e, q :: sl :: sp :: ts⟩) := by
  rw [step_vToI call q sl sp (hT q (by rw [hp]; simp)) e ts hn]
  refine Sound.act (.vToI q) ?_
  obtain ⟨hg, hn, hc⟩ := rcd_step ih hT hg hn (a := .vToI q) rfl trivial ⟨hp, hpn, hc⟩ (.inl (by simp [Act.tok, hb]))
  exact ih.sure hg hn (by simp) ⟨hsp, p ++ [q] ++ [sl], by simp [hp], hc.snoc (by simp [hsl, quiet])⟩

theorem du_vToIToV {q sl sp : Token} (hp : T = p ++ q :: sl :: sp :: ts) (hsp : sp.base = .SPEED_VFR) :
    Sure T e (step call .vToIToV ⟨e, q :: sl :: sp :: ts⟩) := by
  rw [step_vToIToV call q sl sp e ts hn]
  refine Sound.act (.vToIToV q) ?_
  exact ih.sure (hg.num hT (.vToIToV q) trivial hp) ((Act.vToIToV q).run_ne e hn) (by simp) ⟨hsp, p ++ [q, sl], by simp [hp]⟩

theorem du_breakEnd (hb : t.base = .BREAK_END) (hp : T = p ++ t :: ts) (hc : Cx e (p ++ [t])) :
    Sound T (Back e ts (.breakEnd t)) e (step call (.breakEnd t) ⟨e, ts⟩) := by
  have up : ∀ {r : Res F}, Sure T e r → Sound T (Back e ts (.breakEnd t)) e r := fun h => h.weaken fun _ _ h => h.elim
  have back : readOn t ts → Sound T (Back e ts (.breakEnd t)) e (done e ts) := fun h e1 ts1 he => by
    cases he
    exact ⟨hg, hn, fun _ h => h, p ++ [t], by simp [hp], fun _ => .inr ⟨rfl, rfl, h⟩⟩
  rw [step_breakEnd]
  cases ts with
  | nil => exact Sound.ret hg hn
  | cons q ts' =>
    have hp' : T = (p ++ [t]) ++ q :: ts' := by simp [hp]
    have ns : ¬ EndsIn [.STAY, .SLASH] (p ++ [t]) := by rw [endsIn_two]; simp [hb]
    have last : ∃ x, (p ++ [t]).getLast? = some x ∧ x = t := ⟨t, by simp, rfl⟩
    have e22 : t.sub = .IFR → q.base = .POINT → (ts' = [] ∨ (∃ s, ts' = [s] ∧ s.base = .SLASH) ∨
        ∃ s x r, ts' = s :: x :: r ∧ s.base = .SLASH ∧ x.base ∉ [BaseType.SPEED_ALTITUDE, .SPEED_VFR]) →
        Sure T e (call (.addErrorAndReSync q 22) ⟨e, q :: ts'⟩) := fun h1 h2 h3 =>
      ih.errPeek hg hn hp' hc (by decide) (by simp) ⟨⟨t, by simp, hb, h1⟩, h2, h3⟩ ns
    dsimp only
    split
    · rename_i h
      exact back (.inl h)
    rename_i hq
    have hq := Decidable.not_not.1 hq
    split
    · rename_i hi
      cases ts' with
      | nil => exact up (e22 hi hq (.inl rfl))
      | cons sl ts'' =>
        dsimp only
        split
        · rename_i h
          exact back (.inr ⟨hi, sl, ts'', rfl, h⟩)
        rename_i hsl
        have hsl := Decidable.not_not.1 hsl
        cases ts'' with
        | nil => exact up (e22 hi hq (.inr (.inl ⟨sl, rfl, hsl⟩)))
        | cons sp ts3 =>
          dsimp only
          split
          · rename_i hsp
            exact up (du_endTail ih lost hT (ih.sure hg hn (by simp) ⟨p ++ [t], q, sl, sp, ts3, hp', by simp, hc, rfl, hq, hsl, hsp⟩))
          · rename_i h1
            split
            · rename_i hsp
              exact up (du_endTail ih lost hT (ih.sure hg hn (by simp) ⟨p ++ [t], q, sl, sp, ts3, hp', by simp, hc, rfl, hq, hsl, hsp⟩))
            · rename_i h2
              exact up (e22 hi hq (.inr (.inr ⟨sl, sp, ts3, rfl, hsl, by simp [h1, h2]⟩)))
    · exact up (ih.sure hg hn (by simp) ⟨hq, p ++ [t], ts', hp', .inr ⟨rfl, by simp, hc⟩⟩)

/-- The end of a cruise climb. -/
theorem du_climbTail (hp : T = p ++ ts) (hpn : p ≠ []) (hc : Cx e p) (hl : ∃ a x s, p = a ++ [x, s] ∧ EndsIn [.C, .SLASH] a ∧ s.base = .SLASH)
    (h28 : ts = [] → ∃ a b, T = a ++ t :: b ∧ Due e.errs a t b 28) : Sure T e (climbTail call t e ts) := by
  unfold climbTail
  cases ts with
  | nil =>
    obtain ⟨a, b, h1, h2⟩ := h28 rfl
    exact ih.errEnd hg hn rfl h1 (by decide) h2
  | cons nt ts =>
    dsimp only
    have A : At T e ts nt p := ⟨hp, hpn, hc⟩
    refine du_endTail ih lost hT ?_
    split
    · rename_i hb
      exact ih.sure hg hn (by simp) ⟨hb, _, A⟩
    · rename_i h1
      split
      · rename_i hb
        exact ih.sure hg hn (by simp) ⟨hb, _, A⟩
      · rename_i h2
        refine DIH.err ih hg hn A.eq A.cx (by decide) ⟨hl, by simp [h1, h2]⟩ fun _ => ?_
        obtain ⟨a, x, s, rfl, -, hs⟩ := hl
        rw [show a ++ [x, s] = (a ++ [x]) ++ [s] by simp]
        exact noStay (by rw [hs]; decide)

/-- The end of a cruise climb after the reader has lost track. -/
theorem lost_climbTail {u : Token} (hp : T = p ++ u :: ts) (hl : Loose e.errs p (u :: ts)) : Sure T e (climbTail call t e (u :: ts)) := by
  unfold climbTail
  dsimp only
  refine du_endTail ih lost hT ?_
  split
  · rename_i hb
    exact lost e (.assignSpeedAltitudeAltitude u) p u ts hg hn hp hl fun B hB _ => ⟨hB, hb⟩
  · split
    · rename_i hb
      exact lost e (.assignSpeedAltitudePlus u) p u ts hg hn hp hl fun B hB _ => ⟨hB, hb⟩
    · exact lost e (.addErrorAndReSync u 29) p u ts hg hn hp hl fun B hB _ => ⟨hB, by decide⟩

theorem du_ccPoint (A : At T e ts t p) (hl : EndsIn [.C, .SLASH] p) : Sure T e (step call (.cruiseClimbPoint t) ⟨e, ts⟩) := by
  rw [step_ccPoint call t (hT t (by rw [A.eq]; simp)) e ts hn]
  refine Sound.act (.ccPoint t) ?_
  obtain ⟨hg, hn, hc⟩ := rcd_step ih hT hg hn (a := .ccPoint t) rfl trivial A (.inr hl)
  change Cx _ (p ++ [t]) at hc
  have k0 := fun e1 ts1 (h1 : AllGood T e1) (h2 : e1.recs ≠ []) => @du_climbTail F _ T call ih lost lp hT e1 ts1 h1 h2 t
  have k1 := fun e1 ts1 (h1 : AllGood T e1) (h2 : e1.recs ≠ []) => @lost_climbTail F _ T call ih lost lp hT e1 ts1 h1 h2 t
  unfold climbTail at k0 k1
  dsimp only
  cases ts with
  | nil => exact ih.errEnd hg hn rfl A.eq (by decide) ⟨hl, rfl⟩
  | cons nt ts =>
    have Aeq := A.eq
    have A := At.next A.eq hc
    dsimp only
    split
    · rename_i hs
      have h26 := DIH.err ih hg hn A.eq A.cx (n := 26) (by decide) ⟨⟨p, t, rfl, hl⟩, hs⟩ (fun h => absurd h hs)
      intro e2 ts2 h2
      generalize call (.addErrorAndReSync nt 26) ⟨(Act.ccPoint t).run e, ts⟩ = r at h2 h26
      cases r with
      | error x => cases h2
      | ok q =>
        obtain ⟨_, e1, ts1⟩ := q
        obtain ⟨a1, a2, a3, pre, a4, a5⟩ := h26 e1 ts1 rfl
        have hk : Sure T e1 (climbTail call t e1 ts1) := by
          cases ts1 with
          | nil => exact ih.errEnd a1 a2 rfl Aeq (by decide) ⟨hl, .inr ⟨nt, ts, rfl, hs⟩⟩
          | cons u ts1 => exact lost_climbTail ih lost lp hT a1 a2 a4 ((a5 (by simp)).resolve_right id)
        obtain ⟨b1, b2, b3, b4⟩ := hk e2 ts2 h2
        exact ⟨b1, b2, fun x hx => b3 x (a3 x hx), b4⟩
    · rename_i hs
      have hs := Decidable.not_not.1 hs
      refine k0 _ _ hg hn (p := p ++ [t] ++ [nt]) (by simp [Aeq]) (by simp) (A.cx.snoc (by simp [hs, quiet])) ⟨p, t, nt, by simp, hl, hs⟩ ?_
      rintro rfl
      exact ⟨p, [nt], Aeq, hl, .inl ⟨nt, rfl, hs⟩⟩

/-- Free text goes on. -/
theorem du_textTail (hp : T = p ++ ts) (hpn : p ≠ []) (hh : isLlOrBd (headSub e) = false) : Sure T e (textTail call e ts) := by
  unfold textTail
  cases ts with
  | nil => exact Sound.ret hg hn
  | cons nt ts => exact ih.sure hg hn (by simp) ⟨hh, p, hp, hpn⟩

theorem lost_textTail (hp : T = p ++ ts) (hl : ts ≠ [] → Loose e.errs p ts) : Sure T e (textTail call e ts) := by
  unfold textTail
  cases ts with
  | nil => exact Sound.ret hg hn
  | cons nt ts => exact lost e (.breakTextSave nt) p nt ts hg hn hp (hl (by simp)) fun B _ hB => hB

theorem du_textBody (hp : T = p ++ t :: ts) (hpn : p ≠ []) (hh : isLlOrBd (headSub e) = false) : Sure T e (textBody call t e ts hn) := by
  have ht := hT t (by rw [hp]; simp)
  have hg' := hg.num hT (.text t) trivial hp
  have hn' := (Act.text t).run_ne e hn
  have hh' : isLlOrBd (headSub ((Act.text t).run e)) = false := by rw [headSub_note rfl hn]; exact hh
  have hlen : 2 ≤ (p ++ [t]).length := by have := List.length_pos_iff.2 hpn; simp; omega
  unfold textBody
  split
  · rename_i hend
    have hb := closes_end ht hend
    refine Sound.act (.text t) ?_
    have hbe := ih (.breakEnd t) _ ts hg' hn' ⟨hb, p, hp, hpn, noOpen_close (.inl hb), fun h => (by rw [hh'] at h; cases h), .inr hlen⟩
    intro e2 ts2 h2
    generalize call (.breakEnd t) ⟨(Act.text t).run e, ts⟩ = r at h2 hbe
    cases r with
    | error x => cases h2
    | ok q =>
      obtain ⟨_, e1, ts1⟩ := q
      obtain ⟨a1, a2, a3, pre, a4, a5⟩ := hbe e1 ts1 rfl
      have hk : Sure T e1 (textTail call e1 ts1) := by
        by_cases hne : ts1 = []
        · subst hne; exact Sound.ret a1 a2
        · rcases a5 hne with h | ⟨rfl, rfl, _⟩
          · exact lost_textTail ih lost lp hT a1 a2 a4 fun _ => h
          · exact du_textTail ih lost lp hT a1 a2 (p := p ++ [t]) (by simp [hp]) (by simp) hh'
      obtain ⟨b1, b2, b3, b4⟩ := hk e2 ts2 h2
      exact ⟨b1, b2, fun x hx => b3 x (a3 x hx), b4⟩
  · refine Sound.act (.text t) ?_
    exact du_textTail ih lost lp hT hg' hn' (p := p ++ [t]) (by simp [hp]) (by simp) hh'

theorem du_text (hp : T = p ++ t :: ts) (hpn : p ≠ []) (hh : isLlOrBd (headSub e) = false) :
    Sure T e (step call (.breakTextSave t) ⟨e, ts⟩) := by
  by_cases hb : t.base = .TOO_LONG
  · have ht := hT t (by rw [hp]; simp)
    have hlen : 2 ≤ (p ++ [t]).length := by have := List.length_pos_iff.2 hpn; simp; omega
    rw [step_text_long call t e ts hb]
    have h4 : Sure T e (call (.addErrorAndReSync t 4) ⟨e, ts⟩) := by
      refine ih.sure hg hn (by simp) ⟨by decide, ⟨p, ts, hp, hb⟩, p ++ [t], by simp [hp], by simp, fun _ => ⟨by simp,
        ⟨noOpen_close (.inr hb), fun h => ?_, .inr hlen⟩, ?_⟩⟩
      · rw [headSub_note rfl hn, hh] at h; cases h
      · rw [endsIn_two]; simp [hb]
    intro e2 ts2 h2
    generalize call (.addErrorAndReSync t 4) ⟨e, ts⟩ = r at h2 h4
    cases r with
    | error x => cases h2
    | ok q =>
      obtain ⟨_, e1, ts1⟩ := q
      obtain ⟨a1, a2, a3, pre, a4, a5⟩ := h4 e1 ts1 rfl
      change (if h : e1.recs ≠ [] then textBody call t e1 ts1 h else _) = _ at h2
      rw [dif_pos a2] at h2
      unfold textBody at h2
      rw [if_neg (by rw [too_long_sub ht hb]; simp [endsBreak])] at h2
      have hk : Sure T e1 (textTail call ((Act.text t).run e1) ts1) := by
        refine Sound.act (.text t) ?_
        exact lost_textTail ih lost lp hT (a1.num hT (.text t) trivial hp) ((Act.text t).run_ne e1 a2) a4
          fun h => ((a5 h).resolve_right id).mono (run_keeps _ _)
      obtain ⟨b1, b2, b3, b4⟩ := hk e2 ts2 h2
      exact ⟨b1, b2, fun x hx => b3 x (a3 x hx), b4⟩
  · rw [step_text call t e ts hn hb]
    exact du_textBody ih lost lp hT hg hn hp hpn hh

end

/-- Every method only reports messages that are due, as long as it keeps track. -/
theorem due_exec {T : List Token} (hT : ∀ t ∈ T, Typed t) (n : Nat) : DIH (F := F) T (exec n) := by
  induction n with
  | zero => intro c e ts _ _ _ e1 ts1 h; exact absurd h (by simp [exec])
  | succ n ih =>
    intro c e ts hg hn hc
    show Sound T (Back e ts c) e (step (exec n) c ⟨e, ts⟩)
    have lost := lost_exec (F := F) hT n
    have lp := lost_point (F := F) hT n
    have up : ∀ {r : Res F}, Sure T e r → Sound T (Back e ts c) e r := fun h => h.weaken fun _ _ h => h.elim
    cases c with
    | addErrorAndReSync t m => exact up (du_err ih hg hn hc)
    | assignSpeedAltitude t => obtain ⟨hb, p, hp, hc⟩ := hc; exact up (du_level ih hT hg hn hb hp hc)
    | assignSpeedAltitudeAltitude t => obtain ⟨hb, p, A⟩ := hc; exact up (du_levels ih hT hg hn A hb)
    | assignSpeedAltitudePlus t => obtain ⟨hb, p, A⟩ := hc; exact up (du_plus ih hT hg hn A hb)
    | assignSpeedVfr t => obtain ⟨hb, p, hp⟩ := hc; exact up (du_vfr ih hT hg hn hp hb)
    | breakEnd t => obtain ⟨hb, p, hp, _, hc⟩ := hc; exact du_breakEnd ih lost lp hT hg hn hb hp hc
    | breakEndError t => obtain ⟨hb, p, A⟩ := hc; exact up (du_breakEndError ih hT hg hn A hb)
    | breakStart t => obtain ⟨hb, p, hp⟩ := hc; exact up (du_breakStart ih hT hg hn hp hb)
    | breakTextSave t => obtain ⟨hh, p, hp, hpn⟩ := hc; exact up (du_text ih lost lp hT hg hn hp hpn hh)
    | cruiseClimbC t => obtain ⟨hb, p, A⟩ := hc; exact up (du_C ih hT hg hn A hb)
    | cruiseClimbPoint t => obtain ⟨p, A, hl⟩ := hc; exact up (du_ccPoint ih lost lp hT hg hn A hl)
    | dct t => obtain ⟨hb, p, A⟩ := hc; exact up (du_dct ih hT hg hn A hb)
    | forwardSlash t => obtain ⟨hb, p, A⟩ := hc; exact up (du_slash ih hg hn A hb)
    | postAdep t => obtain ⟨p, A, hl⟩ := hc; exact up (du_postAdep ih hg hn A hl)
    | postPoint t => obtain ⟨p, A, hl⟩ := hc; exact up (du_postPoint ih hg hn A hl)
    | postSid => obtain ⟨p, h1, h2, h3, h4⟩ := hc; exact up (du_postSid ih hg hn h1 h2 h3 h4)
    | point t => obtain ⟨hb, p, q, h1, h2⟩ := hc; exact up (du_point ih hT hg hn hb h1 h2)
    | reSync => obtain ⟨p, h1, h2⟩ := hc; exact up (du_reSync ih hT hg hn h1 h2)
    | route t => obtain ⟨hb, p, A⟩ := hc; exact up (du_route ih lost lp hT hg hn A hb)
    | sid t => obtain ⟨hb, p, A⟩ := hc; exact up (du_sid ih hT hg hn A hb)
    | sidStar t => obtain ⟨hb, p, A⟩ := hc; exact up (du_sidStar ih hT hg hn A hb)
    | star t => obtain ⟨hb, p, A⟩ := hc; exact up (du_star ih hT hg hn A hb)
    | stay t => obtain ⟨hb, p, A⟩ := hc; exact up (du_stay ih hg hn A hb)
    | stayTime t => obtain ⟨hb, p, A⟩ := hc; exact up (du_stayTime ih hT hg hn A hb)
    | truncate => obtain ⟨p, h1, _, h3, h4⟩ := hc; exact up (du_truncate ih hg hn h1 h3 h4)
    | vToI =>
      obtain ⟨pre, q, sl, sp, rest, h1, h2, h3, rfl, h5, h6, h7⟩ := hc
      exact up (du_vToI ih lost lp hT hg hn h1 h2 h3 h5 h6 h7)
    | vToIToV =>
      obtain ⟨pre, q, sl, sp, rest, h1, h2, h3, rfl, h5, h6, h7⟩ := hc
      exact up (du_vToIToV ih lost lp hT hg hn h1 h7)

end F15
