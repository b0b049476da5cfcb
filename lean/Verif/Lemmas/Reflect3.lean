import Verif.Lemmas.Reflect2
/-!
# No token is lost: the remaining methods and the induction
-/

namespace F15
open Spec

set_option linter.unusedSectionVars false
variable {F : Type} [PyFloat F] {T : List Token}

section
variable {call : Call → ML F Unit} (li : LIH T call) (ka : Keep' T call) (hT : ∀ t ∈ T, Typed t) (mo : Mono T call)
  (ke : Keeps T call) (hN : ∀ t ∈ T, t.text ≠ [])
variable {e : Ers F} {ts : List Token} {s : St (List Token) F} {t : Token} (hi : Inv T e ts)
include li ka hT mo ke hN hi

theorem l_postAdep (ht : t ∈ T) (h : step call (.postAdep t) ⟨e, ts⟩ = .ok ((), s)) : Lf T false [t] ts s := by
  change postAdep call t ⟨e, ts⟩ = _ at h
  unfold postAdep at h
  cases hb : t.base <;> rw [hb] at h <;> dsimp only at h
  all_goals l0

theorem l_postPoint (ht : t ∈ T) (h : step call (.postPoint t) ⟨e, ts⟩ = .ok ((), s)) : Lf T false [t] ts s := by
  rw [step_postPoint call t e ts hi.ne] at h
  cases hb : t.base <;> rw [hb] at h <;> dsimp only at h
  case ROUTE =>
    split at h
    · l0
    · l0
  all_goals l0

theorem l_postSid (h : step call .postSid ⟨e, ts⟩ = .ok ((), s)) : Lf T false [] ts s := by
  rw [step_postSid call e ts] at h
  cases ts with
  | nil => exact Lf.ret h (by simp)
  | cons nt ts =>
    dsimp only at h
    cases hb : nt.base <;> rw [hb] at h <;> dsimp only at h
    all_goals l1

theorem l_truncate (h : step call .truncate ⟨e, ts⟩ = .ok ((), s)) : Lf T false [] ts s := by
  rw [step_truncate call e ts] at h
  cases ts with
  | nil => exact Lf.ret h (by simp)
  | cons nt ts => dsimp only at h; l1

theorem l_slash (ht : t ∈ T) (hb : t.base = .SLASH) (h : step call (.forwardSlash t) ⟨e, ts⟩ = .ok ((), s)) :
    Lf T false [t] ts s := by
  have acc : Acc t e := .inl (by simp [auxiliary, hb])
  rw [step_slash call t e ts] at h
  cases ts with
  | nil => l0
  | cons nt ts =>
    dsimp only at h
    cases hb : nt.base <;> rw [hb] at h <;> dsimp only at h
    all_goals l2n

theorem l_C (ht : t ∈ T) (hc : t.base = .C) (h : step call (.cruiseClimbC t) ⟨e, ts⟩ = .ok ((), s)) : Lf T false [t] ts s := by
  have acc0 : ∀ e : Ers F, Acc t e := fun e => .inl (by simp [auxiliary, hc])
  rw [step_C call t e ts hi.ne] at h
  cases ts with
  | nil => exact Lf.ret h (by simpa using acc0 _)
  | cons nt ts =>
    dsimp only at h
    cases hb : nt.base <;> rw [hb] at h <;> dsimp only at h
    case SLASH =>
      cases ts with
      | nil =>
        have acc := acc0 ((Act.plain t).run e)
        l2
      | cons nt2 ts =>
        dsimp only at h
        refine Lf.shift (w := [t]) (mid := [nt]) (Lf.shift (w := [t, nt]) (mid := [nt2]) ?_)
        refine leaf (c := .cruiseClimbPoint nt2) li ka hi.tail.tail h hi.tail.mem trivial ?_
        intro x hx
        simp only [List.cons_append, List.nil_append, List.mem_cons, List.not_mem_nil, or_false] at hx
        rcases hx with rfl | rfl | rfl
        · exact ⟨ht, .inr (acc0 _)⟩
        · exact ⟨hi.mem, .inr (.inl (by simp [auxiliary, hb]))⟩
        · exact ⟨hi.tail.mem, .inl (by simp [own])⟩
    all_goals first
      | (have acc := acc0 ((Act.plain t).run e); l2)
      | (have acc := acc0 e; l2n)

theorem l_levelsK {a : Act} (ht : t ∈ T) (haux : auxiliary t = true) (h : levelsK call a e ts = .ok ((), s)) : Lf T false [t] ts s := by
  have acc : Acc t (a.run e) := .inl haux
  unfold levelsK at h
  cases ts with
  | nil => exact Lf.ret h (by simpa using acc)
  | cons nt ts => dsimp only at h; l2

theorem l_level (ht : t ∈ T) (hb : t.base = .SPEED_ALTITUDE) (h : step call (.assignSpeedAltitude t) ⟨e, ts⟩ = .ok ((), s)) :
    Lf T false [t] ts s := by
  have acc : Acc t ((Act.level t).run e) := .inl (by simp [auxiliary, hb])
  rw [step_level call t (hT t ht) hb e ts hi.ne] at h
  cases ts with
  | nil => exact Lf.ret h (by simpa using acc)
  | cons nt ts =>
    dsimp only at h
    split at h
    · l2
    · l2

theorem l_levels (ht : t ∈ T) (hb : t.base = .SPEED_ALTITUDE_ALTITUDE)
    (h : step call (.assignSpeedAltitudeAltitude t) ⟨e, ts⟩ = .ok ((), s)) : Lf T false [t] ts s := by
  by_cases hbad : t.sub ∈ ccBad
  · rw [step_levels_bad call t (hT t ht) hbad e ts hi.ne] at h; cases h
  · rw [step_levels call t (hT t ht) hb hbad e ts hi.ne] at h
    exact l_levelsK li ka hT mo ke hN hi ht (by simp [auxiliary, hb]) h

theorem l_plus (ht : t ∈ T) (hb : t.base = .SPEED_ALTITUDE_PLUS)
    (h : step call (.assignSpeedAltitudePlus t) ⟨e, ts⟩ = .ok ((), s)) : Lf T false [t] ts s := by
  rw [step_plus call t (hT t ht) hb e ts hi.ne] at h
  exact l_levelsK li ka hT mo ke hN hi ht (by simp [auxiliary, hb]) h

theorem l_vfr (ht : t ∈ T) (hb : t.base = .SPEED_VFR) (h : step call (.assignSpeedVfr t) ⟨e, ts⟩ = .ok ((), s)) :
    Lf T false [t] ts s := by
  have acc : Acc t ((Act.vfr t).run e) := Acc.rcd (T := T) (a := .vfr t) (ts := ts) hi.ne rfl hb
  rw [step_vfr call t (hT t ht) hb e ts hi.ne] at h
  cases ts with
  | nil => exact Lf.ret h (by simpa using acc)
  | cons nt ts => dsimp only at h; l2

theorem l_endTail (h : endTail call e ts = .ok ((), s)) : Lf T false [] ts s ∧ ∀ x ∈ T, Acc x e → Acc x s.ers := by
  unfold endTail at h
  cases ts with
  | nil =>
    refine ⟨Lf.ret h (by simp), ?_⟩
    obtain rfl := done_inj h
    exact fun _ _ h => h
  | cons nt ts =>
    dsimp only at h
    refine ⟨?_, ka (.point nt) _ _ _ hi.tail hi.mem h⟩
    l1

/-- A call that takes the tokens `own`, and then the tail. -/
theorem l_seq {c : Call} {k : Ers F → List Token → Res F} {w : List Token} (h : andThen (call c ⟨e, ts⟩) k = .ok ((), s))
    (hp : Pre T ts c) (hl : LPre T e ts c) (hw : ∀ x ∈ w, x ∈ T ∧ (x ∈ own c ∨ Acc x e))
    (hk : ∀ e1 ts1, Inv T e1 ts1 → k e1 ts1 = .ok ((), s) → Lf T false [] ts1 s ∧ ∀ x ∈ T, Acc x e1 → Acc x s.ers) :
    Lf T false w ts s := by
  obtain ⟨s1, h1, h3⟩ := andThen_ok h
  have i1 := (mo c _ _ _ hi hp h1).2
  obtain ⟨g1, g2⟩ := hk _ _ i1 h3
  exact Lf.seq (leaf li ka hi h1 hp hl hw) g2 (fun x hx => (hw x hx).1) hi.suf g1

theorem seq_keep {c : Call} {k : Ers F → List Token → Res F} (h : andThen (call c ⟨e, ts⟩) k = .ok ((), s))
    (hp : Pre T ts c)
    (hk : ∀ e1 ts1, Inv T e1 ts1 → k e1 ts1 = .ok ((), s) → ∀ x ∈ T, Acc x e1 → Acc x s.ers) :
    ∀ x ∈ T, Acc x e → Acc x s.ers := by
  obtain ⟨s1, h1, h3⟩ := andThen_ok h
  have i1 := (mo c _ _ _ hi hp h1).2
  exact fun x hx ha => hk _ _ i1 h3 x hx (ka c _ _ _ hi hp h1 x hx ha)

theorem l_ccK (ht : t ∈ T) (h : (match ts with
        | [] => call (.addErrorAndReSync t 28) ⟨e, []⟩
        | nt2 :: ts => andThen ((if nt2.base = BaseType.SPEED_ALTITUDE_ALTITUDE then call (.assignSpeedAltitudeAltitude nt2)
            else if nt2.base = BaseType.SPEED_ALTITUDE_PLUS then call (.assignSpeedAltitudePlus nt2)
            else call (.addErrorAndReSync nt2 29)) ⟨e, ts⟩) (endTail call)) = .ok ((), s)) :
    Lf T false [] ts s ∧ ∀ x ∈ T, Acc x e → Acc x s.ers := by
  cases ts with
  | nil =>
    exact ⟨(leaf0 (c := .addErrorAndReSync t 28) li ka hi h ⟨ht, by decide⟩ trivial rfl ht (by why)).drop,
      ka (.addErrorAndReSync t 28) _ _ _ hi ⟨ht, by decide⟩ h⟩
  | cons nt ts =>
    dsimp only at h
    have tl : ∀ e1 ts1, Inv T e1 ts1 → endTail call e1 ts1 = .ok ((), s) → Lf T false [] ts1 s ∧ ∀ x ∈ T, Acc x e1 → Acc x s.ers :=
      fun e1 ts1 i1 h => l_endTail li ka hT mo ke hN i1 h
    have go : ∀ c, own c = [nt] → Pre T ts c → LPre T e ts c → andThen (call c ⟨e, ts⟩) (endTail call) = .ok ((), s) →
        Lf T false [] (nt :: ts) s ∧ ∀ x ∈ T, Acc x e → Acc x s.ers := by
      intro c hc hp hl h
      refine ⟨Lf.shift (w := []) (mid := [nt]) (l_seq li ka hT mo ke hN hi.tail h hp hl ?_ tl),
        seq_keep li ka hT mo ke hN hi.tail h hp fun e1 ts1 i1 h => (tl e1 ts1 i1 h).2⟩
      intro x hx
      simp only [List.nil_append, List.mem_cons, List.not_mem_nil, or_false] at hx
      subst hx
      exact ⟨hi.mem, .inl (by simp [hc])⟩
    split at h
    · rename_i hb
      exact go (.assignSpeedAltitudeAltitude nt) rfl ⟨hi.mem, hb⟩ trivial h
    · split at h
      · rename_i hb
        exact go (.assignSpeedAltitudePlus nt) rfl ⟨hi.mem, hb⟩ trivial h
      · exact go (.addErrorAndReSync nt 29) rfl ⟨hi.mem, by decide⟩ trivial h

theorem l_ccPoint (ht : t ∈ T) (h : step call (.cruiseClimbPoint t) ⟨e, ts⟩ = .ok ((), s)) : Lf T false [t] ts s := by
  have acc : Acc t ((Act.ccPoint t).run e) := Acc.rcd (T := T) (a := .ccPoint t) (ts := ts) hi.ne rfl trivial
  rw [step_ccPoint call t (hT t ht) e ts hi.ne] at h
  dsimp only at h
  cases ts with
  | nil => exact leaf0 (c := .addErrorAndReSync t 27) li ka (hi.run _) h ⟨ht, by decide⟩ trivial rfl ht (by why)
  | cons nt ts =>
    dsimp only at h
    split at h
    · refine Lf.shift (w := [t]) (mid := [nt]) (l_seq (c := .addErrorAndReSync nt 26) li ka hT mo ke hN (hi.tail.run _) h
        ⟨hi.mem, by decide⟩ trivial ?_ fun e1 ts1 i1 h => l_ccK li ka hT mo ke hN i1 ht h)
      intro x hx
      simp only [List.cons_append, List.nil_append, List.mem_cons, List.not_mem_nil, or_false] at hx
      rcases hx with rfl | rfl
      · exact ⟨ht, .inr acc⟩
      · exact ⟨hi.mem, .inl (by simp [own])⟩
    · rename_i hs
      have hs : nt.base = .SLASH := Decidable.byContradiction hs
      obtain ⟨g1, g2⟩ := l_ccK li ka hT mo ke hN (hi.tail.run _) ht h
      obtain ⟨read, g3, g4, g5⟩ := g1
      refine Lf.shift (w := [t]) (mid := [nt]) ⟨read, g3, ?_, g5⟩
      intro x hx
      rcases List.mem_append.1 hx with hx | hx
      · simp only [List.cons_append, List.nil_append, List.mem_cons, List.not_mem_nil, or_false] at hx
        rcases hx with rfl | rfl
        · exact g2 _ ht acc
        · exact .inl (by simp [auxiliary, hs])
      · exact g4 x (by simpa using hx)

theorem l_breakEnd (ht : t ∈ T) (hb : t.base = .BREAK_END) (hsuf : (t :: ts) <:+ T)
    (h : step call (.breakEnd t) ⟨e, ts⟩ = .ok ((), s)) : Lf T true [t] ts s := by
  have acc : ∀ e : Ers F, Acc t e := fun e => .inl (by simp [auxiliary, hb])
  have ret : ∀ ts, (t :: ts) <:+ T → done e ts = .ok ((), s) → Lf T true [t] ts s := by
    intro ts hsuf h
    obtain rfl := done_inj h
    exact ⟨[], rfl, by simpa using acc _, .inr ⟨⟨t, hb, hsuf⟩, .inl rfl⟩⟩
  have err : ∀ p, p ∈ T → ∀ ts, Inv T e ts → call (.addErrorAndReSync p 22) ⟨e, ts⟩ = .ok ((), s) → Lf T true [t] ts s := by
    intro p hp ts hi h
    exact (leaf0 (c := .addErrorAndReSync p 22) li ka hi h ⟨hp, by decide⟩ trivial rfl ht (.inr (acc e))).weak
  rw [step_breakEnd call t e ts] at h
  cases ts with
  | nil => exact ret [] hsuf h
  | cons p ts' =>
    dsimp only at h
    split at h
    · exact ret _ hsuf h
    · rename_i hp
      have hp : p.base = .POINT := Decidable.byContradiction hp
      have tl : ∀ e1 ts1, Inv T e1 ts1 → endTail call e1 ts1 = .ok ((), s) → Lf T false [] ts1 s ∧ ∀ x ∈ T, Acc x e1 → Acc x s.ers :=
        fun e1 ts1 i1 h => l_endTail li ka hT mo ke hN i1 h
      split at h
      · cases ts' with
        | nil => exact err p hi.mem _ hi h
        | cons sl ts'' =>
          dsimp only at h
          split at h
          · exact ret _ hsuf h
          · rename_i hsl
            have hsl : sl.base = .SLASH := Decidable.byContradiction hsl
            cases ts'' with
            | nil => exact err p hi.mem _ hi h
            | cons l ts3 =>
              dsimp only at h
              split at h
              · rename_i hb
                exact (l_seq (c := .vToI) li ka hT mo ke hN hi h ⟨p, sl, l, ts3, rfl, hp, hsl, hb⟩ trivial
                  (by simpa using ⟨ht, .inr (acc e)⟩) tl).weak
              · split at h
                · rename_i hb
                  exact (l_seq (c := .vToIToV) li ka hT mo ke hN hi h ⟨p, sl, l, ts3, rfl, hp, hsl, hb, t, by assumption, hsuf⟩ trivial
                    (by simpa using ⟨ht, .inr (acc e)⟩) tl).weak
                · exact err p hi.mem _ hi h
      · exact (leaf2 (c := .point p) li ka hi hi.tail h hi.mem trivial rfl ht (.inr (acc e)) (by why)).weak

theorem l_reSync (he : e.errs ≠ []) (h : step call .reSync ⟨e, ts⟩ = .ok ((), s)) : Lf T false [] ts s := by
  rw [step_reSync call e ts] at h
  cases ts with
  | nil => exact Lf.ret h (by simp)
  | cons nt ts =>
    dsimp only at h
    cases hb : nt.base <;> rw [hb] at h <;> dsimp only at h
    case SLASH =>
      cases ts with
      | nil => l1
      | cons nt2 ts =>
        refine Lf.shift (w := []) (mid := [nt]) ?_
        have fin : Lf T false [] (nt2 :: ts) s → Lf T false ([] ++ [nt]) (nt2 :: ts) s := by
          rintro ⟨read, g1, g2, g3⟩
          refine ⟨read, g1, ?_, g3⟩
          intro x hx
          simp only [List.nil_append, List.singleton_append, List.mem_cons] at hx
          rcases hx with rfl | hx
          · exact .inl (by simp [auxiliary, hb])
          · exact g2 x (by simpa using hx)
        refine fin ?_
        have hi := hi.tail
        clear fin
        dsimp only at h
        cases hb : nt2.base <;> rw [hb] at h <;> dsimp only at h
        all_goals l1
    case BREAK_END =>
      have l := leaf (c := .breakEnd nt) li ka hi.tail h hi.suf ⟨hb, hi.suf⟩ (w := [nt])
        (by simpa using ⟨hi.mem, .inl (by simp [own])⟩)
      obtain ⟨k, hk⟩ := ke (.breakEnd nt) _ _ _ hi.tail hi.suf h
      obtain ⟨read, g1, g2, g3⟩ := l
      refine ⟨nt :: read, by simp [g1], by simpa using g2, g3.imp id fun g => ⟨g.1, .inr ?_⟩⟩
      rw [hk]; simp [he]
    all_goals l1

end

theorem lih_exec (hT : ∀ t ∈ T, Typed t) (hN : ∀ t ∈ T, t.text ≠ []) : ∀ n, LIH (F := F) T (exec n)
  | 0 => fun c e ts s _ _ _ h => by cases h
  | n + 1 => by
    intro c e ts s hi hp hl h
    have li := lih_exec hT hN n
    have ka := keep_of (F := F) hN (trace_exec (F := F) hT n)
    have ke := keeps_of (trace_exec (F := F) hT n)
    have mo := mono_of (trace_exec (F := F) hT n)
    change step (exec n) c ⟨e, ts⟩ = _ at h
    have er : ∀ t m, t ∈ T → plainErr m = true → step (exec n) (.addErrorAndReSync t m) ⟨e, ts⟩ = .ok ((), s) → Lf T false [t] ts s := by
      intro t m ht hm h
      rw [step_err _ t m (plainErr.isSome hm) e ts hi.ne] at h
      have ne : ((Act.err t m).run e).errs ≠ [] := by rw [run_errs]; simp [Act.nums]
      exact leaf0 (c := .reSync) li ka (hi.run _) h trivial ne rfl ht (.inr (Acc.err hm e))
    cases c with
    | addErrorAndReSync t m => exact er t m hp.1 hp.2 h
    | assignSpeedAltitude t => exact l_level li ka hT mo ke hN hi hp.1 hp.2 h
    | assignSpeedAltitudeAltitude t => exact l_levels li ka hT mo ke hN hi hp.1 hp.2 h
    | assignSpeedAltitudePlus t => exact l_plus li ka hT mo ke hN hi hp.1 hp.2 h
    | assignSpeedVfr t => exact l_vfr li ka hT mo ke hN hi hp.1 hp.2 h
    | breakEnd t => exact l_breakEnd li ka hT mo ke hN hi (hp.subset (by simp)) hl.1 hl.2 h
    | breakEndError t =>
      obtain ⟨m, hm, he⟩ := bee_err (call := exec n) (F := F) (hT t hp) hl
      rw [he] at h
      exact leaf0 (c := .addErrorAndReSync t m) li ka hi h ⟨hp, hm⟩ trivial rfl hp (.inl (by simp [own]))
    | breakStart t => exact l_breakStart li ka hT mo ke hN hi hp.1 hp.2 h
    | breakTextSave t => exact l_text li ka hT mo ke hN hi (hp.subset (by simp)) hl h
    | cruiseClimbC t => exact l_C li ka hT mo ke hN hi hp.1 hp.2 h
    | cruiseClimbPoint t => exact l_ccPoint li ka hT mo ke hN hi hp h
    | dct t => exact l_dct li ka hT mo ke hN hi hp.1 hp.2 h
    | forwardSlash t => exact l_slash li ka hT mo ke hN hi hp hl h
    | postAdep t => exact l_postAdep li ka hT mo ke hN hi hp h
    | postPoint t => exact l_postPoint li ka hT mo ke hN hi hp h
    | postSid => exact l_postSid li ka hT mo ke hN hi h
    | point t => exact l_point li ka hT mo ke hN hi hp h
    | reSync => exact l_reSync li ka hT mo ke hN hi hl h
    | route t => exact l_route li ka hT mo ke hN hi hp.1 hp.2 h
    | sid t => exact l_sid li ka hT mo ke hN hi hp.1 hp.2 h
    | sidStar t => exact l_sidStar li ka hT mo ke hN hi hp.1 hp.2 h
    | star t => exact l_star li ka hT mo ke hN hi hp.1 hp.2 h
    | stay t => exact l_stay li ka hT mo ke hN hi hp hl h
    | stayTime t => exact l_stayTime li ka hT mo ke hN hi hp.1 hp.2 h
    | truncate => exact l_truncate li ka hT mo ke hN hi h
    | vToI =>
      obtain ⟨p, sl, l, ts', rfl, h1, h2, h3⟩ := hp
      rw [step_vToI _ p sl l (hT p hi.mem) e ts' hi.ne] at h
      have acc : Acc p ((Act.vToI p).run e) := Acc.rcd (T := T) (a := .vToI p) (ts := ts') hi.ne rfl h1
      refine Lf.shift (w := []) (mid := [p, sl, l]) (leaf (c := .assignSpeedAltitude l) li ka (hi.tail.tail.tail.run _) h
        ⟨hi.tail.tail.mem, h3⟩ trivial ?_)
      intro x hx
      simp only [List.nil_append, List.mem_cons, List.not_mem_nil, or_false] at hx
      rcases hx with rfl | rfl | rfl
      · exact ⟨hi.mem, .inr acc⟩
      · exact ⟨hi.tail.mem, .inr (.inl (by simp [auxiliary, h2]))⟩
      · exact ⟨hi.tail.tail.mem, .inl (by simp [own])⟩
    | vToIToV =>
      obtain ⟨p, sl, l, ts', rfl, h1, h2, h3, w, hw, q, hq⟩ := hp
      rw [step_vToIToV _ p sl l e ts' hi.ne] at h
      have acc : Acc p ((Act.vToIToV p).run e) := Acc.rcd (T := T) (a := .vToIToV p) (ts := ts') hi.ne rfl
        ⟨h1, q, w, sl, l, ts', hq.symm, hw, h2, h3⟩
      refine Lf.shift (w := []) (mid := [p, sl, l]) (leaf (c := .assignSpeedVfr l) li ka (hi.tail.tail.tail.run _) h
        ⟨hi.tail.tail.mem, h3⟩ trivial ?_)
      intro x hx
      simp only [List.nil_append, List.mem_cons, List.not_mem_nil, or_false] at hx
      rcases hx with rfl | rfl | rfl
      · exact ⟨hi.mem, .inr acc⟩
      · exact ⟨hi.tail.mem, .inr (.inl (by simp [auxiliary, h2]))⟩
      · exact ⟨hi.tail.tail.mem, .inl (by simp [own])⟩

end F15
