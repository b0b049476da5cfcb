import Verif.Lemmas.Parse
/-!
# Depth of the recursion

A potential bounds the nesting of the method calls: a call of rank `r` with `k` tokens left needs at most
`r + 4 k + 1` frames.
-/

namespace F15
open Spec

set_option linter.unusedSectionVars false
variable {F : Type} [PyFloat F] {T : List Token}

/-- Rank of a method: longest chain of calls that take no token. -/
def rank : Call → Nat
  | .addErrorAndReSync _ _ => 1
  | .forwardSlash _ | .stay _ | .breakEndError _ | .sid _ | .sidStar _ | .star _ | .cruiseClimbPoint _ | .breakEnd _ => 2
  | .postPoint _ | .postAdep _ | .breakTextSave _ => 3
  | _ => 0

/-- No `RecursionError`. -/
def NoRec (r : Res F) : Prop := r ≠ .error .recursionError

theorem NoRec.done {e : Ers F} {ts : List Token} : NoRec (done e ts) := by intro h; cases h

/-- The bound for the calls made. -/
def Deep (T : List Token) (call : Call → ML F Unit) (b : Nat) : Prop :=
  ∀ c e ts, Inv T e ts → Pre T ts c → rank c + 4 * ts.length < b → NoRec (call c ⟨e, ts⟩)

theorem Star.suf {a b : Cfg F} (h : Star T a b) : b.toks <:+ a.toks := by
  refine Star.inv (P := fun c => c.toks <:+ a.toks) ?_ h (List.suffix_refl _)
  intro x y ev hs
  cases ev with
  | pop e t ts h => exact (List.suffix_cons t ts).trans hs
  | drop | note | rcd => exact hs

/-- After a call (that returned): the assumptions hold and there are no more tokens than before. -/
theorem NoRec.andThen {r : Res F} {k : Ers F → List Token → Res F} {e : Ers F} {ts K h : List Token} (hr : NoRec r)
    (g : G T r ⟨e, ts, h⟩ K) (hi : Inv T e ts)
    (hk : ∀ e' ts', Inv T e' ts' → ts'.length ≤ ts.length → NoRec (k e' ts')) : NoRec (andThen r k) := by
  cases r with
  | error x => exact hr
  | ok p => exact hk _ _ (Star.invs g hi) (Star.suf g).length_le

section
variable {call : Call → ML F Unit} {b : Nat} (dp : Deep T call b) (ih : IH T call) (hT : ∀ t ∈ T, Typed t)
include dp ih hT

set_option hygiene false in
local macro "go" : tactic => `(tactic| (first
  | exact NoRec.done
  | exact dp _ _ _ hi (by simp [Pre, *]; try decide) (by simp [rank] at hb ⊢; omega)))

theorem deep_textTail {e : Ers F} {ts : List Token} (hi : Inv T e ts) (hb : 4 * ts.length ≤ b) : NoRec (textTail call e ts) := by
  unfold textTail
  cases ts with
  | nil => go
  | cons nt ts =>
    have hm := hi.mem
    have hj := hi.suf
    replace hi := hi.tail
    go

theorem deep_endTail {e : Ers F} {ts : List Token} (hi : Inv T e ts) (hb : 4 * ts.length ≤ b) : NoRec (endTail call e ts) := by
  unfold endTail
  cases ts with
  | nil => go
  | cons nt ts =>
    have hm := hi.mem
    have hj := hi.suf
    replace hi := hi.tail
    go

theorem deep_levelsK {e : Ers F} {ts : List Token} (hi : Inv T e ts) (a : Act) (hb : 4 * ts.length ≤ b) :
    NoRec (levelsK call a e ts) := by
  unfold levelsK
  replace hi := hi.run a
  cases ts with
  | nil => go
  | cons nt ts =>
    have hm := hi.mem
    have hj := hi.suf
    replace hi := hi.tail
    go

theorem deep_textBody {e : Ers F} {ts : List Token} (hi : Inv T e ts) {t : Token} (ht : t ∈ T) (hj : t.base = .TOO_LONG ∨ t :: ts <:+ T)
    (hb : 2 + 4 * ts.length < b) :
    NoRec (textBody call t e ts hi.ne) := by
  unfold textBody
  split
  · rename_i hend
    have hj' : t :: ts <:+ T := hj.resolve_left fun hl => by rw [long_no_end (hT t ht) hl] at hend; cases hend
    have hi' := hi.run (.text t)
    refine NoRec.andThen (T := T) (e := (Act.text t).run e) (ts := ts) (K := []) (h := []) (dp _ _ _ hi' hj' (by simp [rank]; omega))
      (IH.call0 ih hi' (.inl rfl) hj' rfl) hi' fun e' ts' hi'' hl => deep_textTail dp ih hT hi'' (by omega)
  · exact deep_textTail dp ih hT (hi.run (.text t)) (by omega)

theorem deep_step {c : Call} {e : Ers F} {ts : List Token} (hi : Inv T e ts) (hp : Pre T ts c)
    (hb : rank c + 4 * ts.length ≤ b) : NoRec (step call c ⟨e, ts⟩) := by
  cases c with
  | addErrorAndReSync t n =>
    rw [step_err call t n (plainErr.isSome hp.2) e ts hi.ne]
    replace hi := hi.run (.err t n)
    go
  | assignSpeedAltitude t =>
    rw [step_level call t (hT t hp.1) hp.2 e ts hi.ne]
    replace hi := hi.run (.level t)
    cases ts with
    | nil => go
    | cons nt ts =>
      have hm := hi.mem
      have hj := hi.suf
      replace hi := hi.tail
      dsimp only
      split <;> go
  | assignSpeedAltitudeAltitude t =>
    by_cases hbad : t.sub ∈ ccBad
    · rw [step_levels_bad call t (hT t hp.1) hbad e ts hi.ne]; intro h; cases h
    · rw [step_levels call t (hT t hp.1) hp.2 hbad e ts hi.ne]
      exact deep_levelsK dp ih hT hi _ (by simp [rank] at hb; omega)
  | assignSpeedAltitudePlus t =>
    rw [step_plus call t (hT t hp.1) hp.2 e ts hi.ne]
    exact deep_levelsK dp ih hT hi _ (by simp [rank] at hb; omega)
  | assignSpeedVfr t =>
    rw [step_vfr call t (hT t hp.1) hp.2 e ts hi.ne]
    replace hi := hi.run (.vfr t)
    cases ts with
    | nil => go
    | cons nt ts =>
      have hm := hi.mem
      have hj := hi.suf
      replace hi := hi.tail
      go
  | breakEnd t =>
    rw [step_breakEnd]
    cases ts with
    | nil => go
    | cons p ts' =>
      have hm := hi.mem
      have hj := hi.suf
      dsimp only
      split
      · go
      rename_i hpt
      split
      · cases ts' with
        | nil => go
        | cons sl ts'' =>
          dsimp only
          split
          · go
          rename_i hsl
          cases ts'' with
          | nil => go
          | cons sp ts3 =>
            dsimp only
            split
            · rename_i hsp
              have hpre : Pre T (p :: sl :: sp :: ts3) .vToI := ⟨p, sl, sp, ts3, rfl, Decidable.not_not.1 hpt, Decidable.not_not.1 hsl, hsp⟩
              refine NoRec.andThen (T := T) (e := e) (ts := p :: sl :: sp :: ts3) (K := []) (h := [])
                (dp _ _ _ hi hpre (by simp [rank] at hb ⊢; omega)) (IH.call0 ih hi (.inl rfl) hpre rfl) hi fun e' ts' hi'' hl => ?_
              simp [rank] at hb hl
              exact deep_endTail dp ih hT hi'' (by omega)
            · split
              · rename_i hsp
                have hpre : Pre T (p :: sl :: sp :: ts3) .vToIToV :=
                  ⟨p, sl, sp, ts3, rfl, Decidable.not_not.1 hpt, Decidable.not_not.1 hsl, hsp, t, by assumption, hp⟩
                refine NoRec.andThen (T := T) (e := e) (ts := p :: sl :: sp :: ts3) (K := []) (h := [])
                  (dp _ _ _ hi hpre (by simp [rank] at hb ⊢; omega)) (IH.call0 ih hi (.inl rfl) hpre rfl) hi fun e' ts' hi'' hl => ?_
                simp [rank] at hb hl
                exact deep_endTail dp ih hT hi'' (by omega)
              · go
      · replace hi := hi.tail
        go
  | breakEndError t =>
    show NoRec (breakEndError call t ⟨e, ts⟩)
    have ht : t ∈ T := hp
    unfold breakEndError
    split
    · exact dp _ _ _ hi ⟨ht, by decide⟩ (by simp [rank] at hb ⊢; omega)
    · split
      · exact dp _ _ _ hi ⟨ht, by decide⟩ (by simp [rank] at hb ⊢; omega)
      · split
        · exact dp _ _ _ hi ⟨ht, by decide⟩ (by simp [rank] at hb ⊢; omega)
        · exact NoRec.done (e := e) (ts := ts)
  | breakStart t =>
    rw [step_breakStart call t e ts hi.ne]
    replace hi := hi.run (.brk t)
    cases ts with
    | nil => go
    | cons nt ts =>
      have hm := hi.mem
      have hj := hi.suf
      replace hi := hi.tail
      dsimp only
      split <;> go
  | breakTextSave t =>
    have ht : t ∈ T := hp.subset (by simp)
    simp only [rank] at hb
    by_cases hl : t.base = .TOO_LONG
    · rw [step_text_long call t e ts hl]
      have hpre : Pre T ts (.addErrorAndReSync t 4) := ⟨ht, by decide⟩
      refine NoRec.andThen (T := T) (e := e) (ts := ts) (K := []) (h := []) (dp _ _ _ hi hpre (by simp [rank]; omega))
        (IH.call0 ih hi (.inl rfl) hpre rfl) hi fun e' ts' hi' hl => ?_
      rw [dif_pos hi'.ne]
      exact deep_textBody dp ih hT hi' ht (.inl (by assumption)) (by omega)
    · rw [step_text call t e ts hi.ne hl]
      exact deep_textBody dp ih hT hi ht (.inr hp) (by omega)
  | cruiseClimbC t =>
    rw [step_C call t e ts hi.ne]
    have ht := hp.1
    have hi' := hi.run (.plain t)
    cases ts with
    | nil => go
    | cons nt ts =>
      have hm := hi.mem
      have hj := hi.suf
      dsimp only
      cases hb' : nt.base
      case UNKNOWN | SPEED_VFR | SPEED_ALTITUDE | BREAK_END | SPEED_ALTITUDE_ALTITUDE | SPEED_ALTITUDE_PLUS | TOO_LONG |
          STAY_TIME =>
        replace hi := hi.tail
        go
      case SLASH =>
        dsimp only
        cases ts with
        | nil =>
          replace hi := hi'.tail
          go
        | cons nt2 ts =>
          replace hi := hi.tail
          have hm2 := hi.mem
          replace hi := hi.tail
          go
      all_goals
        replace hi := hi'.tail
        go
  | cruiseClimbPoint t =>
    have ht : t ∈ T := hp
    rw [step_ccPoint call t (hT t ht) e ts hi.ne]
    replace hi := hi.run (.ccPoint t)
    simp only [rank] at hb
    have kk : ∀ (e : Ers F) ts, Inv T e ts → 2 + 4 * ts.length ≤ b → NoRec (match ts with
          | [] => call (.addErrorAndReSync t 28) ⟨e, []⟩
          | nt2 :: ts => andThen ((if nt2.base = .SPEED_ALTITUDE_ALTITUDE then call (.assignSpeedAltitudeAltitude nt2)
              else if nt2.base = .SPEED_ALTITUDE_PLUS then call (.assignSpeedAltitudePlus nt2)
              else call (.addErrorAndReSync nt2 29)) ⟨e, ts⟩) (endTail call)) := by
      intro e ts hi hb
      cases ts with
      | nil => go
      | cons nt2 ts =>
        have hm := hi.mem
        have hj := hi.suf
        replace hi := hi.tail
        dsimp only
        simp only [List.length_cons] at hb
        have key : ∀ c, Pre T ts c → handOf c = [] → rank c ≤ 3 → NoRec (andThen (call c ⟨e, ts⟩) (endTail call)) := by
          intro c hpre hh hr
          exact NoRec.andThen (T := T) (e := e) (ts := ts) (K := []) (h := []) (dp _ _ _ hi hpre (by omega))
            (IH.call0 ih hi (.inl rfl) hpre hh) hi fun e' ts' hi'' hl => deep_endTail dp ih hT hi'' (by omega)
        split
        · rename_i h; exact key _ ⟨hm, h⟩ rfl (by simp [rank])
        · split
          · rename_i h; exact key _ ⟨hm, h⟩ rfl (by simp [rank])
          · exact key _ ⟨hm, by decide⟩ rfl (by simp [rank])
    dsimp only
    cases ts with
    | nil => go
    | cons nt ts =>
      have hm := hi.mem
      have hj := hi.suf
      replace hi := hi.tail
      dsimp only
      simp only [List.length_cons] at hb
      split
      · have hpre : Pre T ts (.addErrorAndReSync nt 26) := ⟨hm, by decide⟩
        exact NoRec.andThen (T := T) (e := (Act.ccPoint t).run e) (ts := ts) (K := []) (h := [])
          (dp _ _ _ hi hpre (by simp [rank]; omega)) (IH.call0 ih hi (.inl rfl) hpre rfl) hi fun e' ts' hi'' hl =>
            kk _ _ hi'' (by omega)
      · exact kk _ _ hi (by omega)
  | dct t =>
    rw [step_dct call t e ts hi.ne]
    replace hi := hi.run (.plain t)
    cases ts with
    | nil => go
    | cons nt ts =>
      have hm := hi.mem
      have hj := hi.suf
      replace hi := hi.tail
      dsimp only
      cases hb' : nt.base
      all_goals go
  | forwardSlash t =>
    have ht : t ∈ T := hp
    rw [step_slash]
    cases ts with
    | nil => go
    | cons nt ts =>
      have hm := hi.mem
      have hj := hi.suf
      replace hi := hi.tail
      dsimp only
      cases hb' : nt.base
      all_goals go
  | postAdep t =>
    have ht : t ∈ T := hp
    show NoRec (postAdep call t ⟨e, ts⟩)
    unfold postAdep
    cases hb' : t.base
    all_goals go
  | postPoint t =>
    have ht : t ∈ T := hp
    rw [step_postPoint call t e ts hi.ne]
    cases hb' : t.base
    case ROUTE =>
      dsimp only
      split <;> go
    all_goals go
  | postSid =>
    rw [step_postSid]
    cases ts with
    | nil => go
    | cons nt ts =>
      have hm := hi.mem
      have hj := hi.suf
      replace hi := hi.tail
      dsimp only
      cases hb' : nt.base
      all_goals go
  | point t =>
    rw [step_point call t (hT t hp) e ts hi.ne]
    replace hi := hi.run (.point t)
    cases ts with
    | nil => go
    | cons nt ts =>
      have hm := hi.mem
      have hj := hi.suf
      replace hi := hi.tail
      go
  | reSync =>
    rw [step_reSync]
    cases ts with
    | nil => go
    | cons t ts =>
      have hm := hi.mem
      have hj := hi.suf
      replace hi := hi.tail
      dsimp only
      cases hb' : t.base
      case SLASH =>
        dsimp only
        cases ts with
        | nil => go
        | cons nt ts =>
          have hm2 := hi.mem
          replace hi := hi.tail
          dsimp only
          cases hb2 : nt.base
          all_goals go
      all_goals go
  | route t =>
    rw [step_route call t e ts hi.ne]
    replace hi := hi.run (.route t)
    simp only [rank] at hb
    cases ts with
    | nil => go
    | cons nt ts =>
      have hm := hi.mem
      have hj := hi.suf
      replace hi := hi.tail
      dsimp only
      cases hb' : nt.base
      case POINT =>
        dsimp only
        simp only [List.length_cons] at hb
        split
        · have g := ih (.addErrorAndReSync nt 48) _ ts [] hi (.inl rfl) ⟨hm, by decide⟩
          refine NoRec.andThen (T := T) (dp _ _ _ hi ⟨hm, by decide⟩ (by simp [rank]; omega)) g hi fun e' ts' hi'' hl => ?_
          exact dp _ _ _ hi'' hm (by simp [rank]; omega)
        · go
      all_goals go
  | sid t =>
    rw [step_sid call t e ts hi.ne]
    have ht := hp.1
    split
    · replace hi := hi.run (.sid t)
      go
    · replace hi := hi.run (.plain t)
      go
  | sidStar t =>
    rw [step_sidStar call t e ts hi.ne]
    split
    · replace hi := hi.run (.sid t)
      go
    · cases ts with
      | nil => go
      | cons pk ts =>
        have hm := hi.mem
        have hj := hi.suf
        replace hi := hi.run (.plain t)
        go
  | star t =>
    rw [step_star call t e ts hi.ne]
    cases ts with
    | nil => go
    | cons pk ts =>
      have hm := hi.mem
      have hj := hi.suf
      replace hi := hi.run (.plain t)
      go
  | stay t =>
    have ht : t ∈ T := hp
    rw [step_stay]
    cases ts with
    | nil => go
    | cons nt ts =>
      have hm := hi.mem
      have hj := hi.suf
      replace hi := hi.tail
      dsimp only
      split
      · go
      · cases ts with
        | nil => go
        | cons nt2 ts =>
          have hm2 := hi.mem
          replace hi := hi.tail
          dsimp only
          split
          · go
          · rename_i h
            exact dp _ _ _ hi ⟨hm2, Decidable.not_not.1 h⟩ (by simp [rank] at hb ⊢; omega)
  | stayTime t =>
    rw [step_stayTime call t (stay_facts (hT t hp.1) hp.2) e ts hi.ne]
    replace hi := hi.run (.stay t)
    cases ts with
    | nil => go
    | cons nt ts =>
      have hm := hi.mem
      have hj := hi.suf
      replace hi := hi.tail
      dsimp only
      cases hb' : nt.base
      all_goals go
  | truncate =>
    rw [step_truncate]
    cases ts with
    | nil => go
    | cons nt ts =>
      have hm := hi.mem
      have hj := hi.suf
      replace hi := hi.tail
      go
  | vToI =>
    obtain ⟨p, sl, sp, rest, rfl, h2, h3, h4⟩ := hp
    rw [step_vToI call p sl sp (hT p hi.mem) e rest hi.ne]
    have hm := hi.tail.tail.mem
    replace hi := hi.tail.tail.tail.run (.vToI p)
    go
  | vToIToV =>
    obtain ⟨p, sl, sp, rest, rfl, h2, h3, h4⟩ := hp
    rw [step_vToIToV call p sl sp e rest hi.ne]
    have hm := hi.tail.tail.mem
    replace hi := hi.tail.tail.tail.run (.vToIToV p)
    go

end

/-- With enough frames no `RecursionError` occurs. -/
theorem deep_exec (hT : ∀ t ∈ T, Typed t) (n : Nat) : Deep (F := F) T (exec n) n := by
  induction n with
  | zero => intro c e ts _ _ h; omega
  | succ n ih => exact fun c e ts hi hp hb => deep_step ih (trace_exec hT n) hT hi hp (by omega)

end F15
