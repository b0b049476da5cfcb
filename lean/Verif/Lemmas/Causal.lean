import Verif.Lemmas.Past
import Verif.Lemmas.Reflect2
/-!
# Two runs on token lists with a common beginning

While three tokens of the common beginning are left, both runs do the same. From then on, each run only extends the
state reached.
-/

namespace F15
open Spec

set_option linter.unusedSectionVars false
variable {F : Type} [PyFloat F]

/-- The last three tokens of `pre`, and the tokens of `z`. -/
def Tail3 (pre z : List Token) (t : Token) : Prop := t ∈ pre.drop (pre.length - 3) ∨ t ∈ z

theorem tail3_mem {pre z : List Token} {t : Token} (h : Tail3 pre z t) : t ∈ pre ++ z :=
  List.mem_append.2 (h.imp_left fun h => List.mem_of_mem_drop h)

theorem short_tail {pre p : List Token} (hs : p <:+ pre) (hl : p.length ≤ 3) {t : Token} (ht : t ∈ p) :
    t ∈ pre.drop (pre.length - 3) := by
  obtain ⟨q, rfl⟩ := hs
  have : (q ++ p).drop ((q ++ p).length - 3) = q.drop (q.length + p.length - 3) ++ p := by
    rw [List.length_append, List.drop_append, show q.length + p.length - 3 - q.length = 0 by omega, List.drop_zero]
  rw [this]; exact List.mem_append_right _ ht

/-- A run that only extends `e0`. -/
def Only (S : Token → Prop) (e0 : Ers F) (r : Res F) : Prop :=
  ∀ e1 ts1, r = done e1 ts1 → Ext2 S e0 e1 ∧ e1.recs ≠ [] ∧ ∀ t ∈ ts1, S t

/-- The token argument of a call. -/
def argOf : Call → List Token
  | .addErrorAndReSync t _ | .assignSpeedAltitude t | .assignSpeedAltitudeAltitude t | .assignSpeedAltitudePlus t
  | .assignSpeedVfr t | .breakEnd t | .breakEndError t | .breakStart t | .breakTextSave t | .cruiseClimbC t
  | .cruiseClimbPoint t | .dct t | .forwardSlash t | .postAdep t | .postPoint t | .point t | .route t | .sid t | .sidStar t
  | .star t | .stay t | .stayTime t => [t]
  | .postSid | .reSync | .truncate | .vToI | .vToIToV => []

/-- The preconditions, as far as they do not look back. -/
def PreD (p : List Token) : Call → Prop
  | .vToIToV => ∃ q sl sp rest, p = q :: sl :: sp :: rest ∧ q.base = .POINT ∧ sl.base = .SLASH ∧ sp.base = .SPEED_VFR
  | c => Pre (argOf c ++ p) p c

/-- The preconditions do not depend on what follows. -/
theorem pre_more {p z : List Token} {c : Call} (h : PreD p c) (hl : p.length ≤ 2) : Pre (argOf c ++ (p ++ z)) (p ++ z) c := by
  cases c with
  | vToIToV =>
    obtain ⟨q, sl, sp, rest, h1, h2⟩ := h
    subst h1
    simp at hl
  | vToI =>
    obtain ⟨q, sl, sp, rest, h1, h2⟩ := h
    subst h1
    exact ⟨q, sl, sp, rest ++ z, rfl, h2⟩
  | postSid | reSync | truncate => trivial
  | breakEnd | breakEndError | breakTextSave | cruiseClimbPoint | forwardSlash | postAdep | postPoint | point | stay =>
    simp [Pre, argOf]
  | _ => exact ⟨by simp [argOf], h.2⟩

section
variable {pre z : List Token} (hz : ∀ t ∈ pre ++ z, Typed t)
include hz

/-- A call made late only extends the state. -/
theorem only_call (n : Nat) (c : Call) {e0 e : Ers F} {ts : List Token} (he : e.recs ≠ []) (hx : Ext2 (Tail3 pre z) e0 e)
    (hts : ∀ t ∈ ts, Tail3 pre z t) (ha : ∀ t ∈ argOf c, t ∈ pre ++ z ∧ Late (Tail3 pre z) e t)
    (hp : Pre (argOf c ++ ts) ts c) : Only (Tail3 pre z) e0 (exec n c ⟨e, ts⟩) := by
  intro e1 ts1 h
  have hT : ∀ t ∈ argOf c ++ ts, Typed t := fun t ht => (List.mem_append.1 ht).elim (fun h => hz t (ha t h).1)
    fun h => hz t (tail3_mem (hts t h))
  have g := trace_exec (F := F) hT n c e ts [] ⟨he, List.suffix_append _ _⟩ (.inl rfl) hp
  rw [h] at g
  change Star _ _ _ at g
  have hi := g.invs ⟨he, List.suffix_append _ _⟩
  refine ⟨Ext2.star g ?_ hx, hi.ne, fun t ht => hts t (g.toks.subset ht)⟩
  intro t ht
  rcases List.mem_append.1 ht with h | h
  · exact (ha t h).2
  · exact .inl (hts t h)

theorem only_head (n : Nat) {c : Token → Call} (harg : ∀ t, argOf (c t) = [t]) (hpre : ∀ t ts, Pre (t :: ts) ts (c t)) {e0 e : Ers F}
    {t : Token} {ts : List Token} (he : e.recs ≠ []) (hx : Ext2 (Tail3 pre z) e0 e)
    (hts : ∀ u ∈ t :: ts, Tail3 pre z u) : Only (Tail3 pre z) e0 (exec n (c t) ⟨e, ts⟩) := by
  refine only_call hz n (c t) he hx (fun u hu => hts u (by simp [hu])) ?_ ?_
  · intro u hu
    rw [harg, List.mem_singleton] at hu
    subst hu
    have := hts u (by simp)
    exact ⟨tail3_mem this, .inl this⟩
  · rw [harg]; exact hpre _ _

theorem only_done {e0 e : Ers F} {ts : List Token} (he : e.recs ≠ []) (hx : Ext2 (Tail3 pre z) e0 e)
    (hts : ∀ t ∈ ts, Tail3 pre z t) : Only (Tail3 pre z) e0 (done e ts) := by
  intro e1 ts1 h
  cases h
  exact ⟨hx, he, hts⟩

theorem only_textTail (n : Nat) {e0 e : Ers F} {ts : List Token} (he : e.recs ≠ []) (hx : Ext2 (Tail3 pre z) e0 e)
    (hts : ∀ t ∈ ts, Tail3 pre z t) : Only (Tail3 pre z) e0 (textTail (exec n) e ts) := by
  unfold textTail
  cases ts with
  | nil => exact only_done hz he hx hts
  | cons nt ts => exact only_head hz n (fun _ => rfl) (fun _ _ => by simp [Pre]) he hx hts

theorem only_endTail (n : Nat) {e0 e : Ers F} {ts : List Token} (he : e.recs ≠ []) (hx : Ext2 (Tail3 pre z) e0 e)
    (hts : ∀ t ∈ ts, Tail3 pre z t) : Only (Tail3 pre z) e0 (endTail (exec n) e ts) := by
  unfold endTail
  cases ts with
  | nil => exact only_done hz he hx hts
  | cons nt ts => exact only_head hz n (c := .point) (fun _ => rfl) (fun _ _ => by simp [Pre]) he hx hts

omit hz in
theorem Only.andThen {S : Token → Prop} {e0 : Ers F} {r : Res F} {k : Ers F → List Token → Res F} (h : Only S e0 r)
    (hk : ∀ e1 ts1, r = done e1 ts1 → Ext2 S e0 e1 → e1.recs ≠ [] → (∀ t ∈ ts1, S t) → Only S e0 (k e1 ts1)) :
    Only S e0 (andThen r k) := by
  intro e2 ts2 h2
  cases r with
  | error x => cases h2
  | ok q =>
    obtain ⟨u, e1, ts1⟩ := q
    obtain ⟨h3, h4, h5⟩ := h e1 ts1 rfl
    exact hk e1 ts1 rfl h3 h4 h5 e2 ts2 h2

/-- An error reported remains. -/
theorem err_kept {n : Nat} {t : Token} {m : Nat} (hm : plainErr m = true) (ht : t ∈ pre ++ z) {e e1 : Ers F} {ts ts1 : List Token} (he : e.recs ≠ [])
    (hts : ts <:+ pre ++ z) (h : exec n (.addErrorAndReSync t m) (⟨e, ts⟩ : St (List Token) F) = done e1 ts1) :
    errRec t m ∈ e1.errs := by
  cases n with
  | zero => exact absurd h (by simp [exec])
  | succ n =>
    have g := tr_err' (T := pre ++ z) (K := []) (trace_exec (F := F) hz n) (e := e) (ts := ts) ⟨he, hts⟩ (t := t) (n := m) (.inl rfl) ht hm
    change G _ (exec (n + 1) _ _) _ _ at g
    rw [h] at g
    change Star _ _ _ at g
    refine g.retains ?_
    show errRec t m ∈ ((Act.err t m).run e).errs
    rw [run_errs]; simp [Act.nums, Act.tok]

/-- The end of `cruise_climb_point`. -/
def climbTail (call : Call → ML F Unit) (t : Token) (e : Ers F) (ts : List Token) : Res F :=
  match ts with
  | [] => call (.addErrorAndReSync t 28) ⟨e, []⟩
  | nt2 :: ts => andThen ((if nt2.base = .SPEED_ALTITUDE_ALTITUDE then call (.assignSpeedAltitudeAltitude nt2)
      else if nt2.base = .SPEED_ALTITUDE_PLUS then call (.assignSpeedAltitudePlus nt2)
      else call (.addErrorAndReSync nt2 29)) ⟨e, ts⟩) (endTail call)

theorem only_climbTail (n : Nat) (t : Token) {e0 e : Ers F} {ts : List Token} (he : e.recs ≠ []) (hx : Ext2 (Tail3 pre z) e0 e)
    (hts : ∀ t ∈ ts, Tail3 pre z t) : Only (Tail3 pre z) e0 (climbTail (exec n) t e ts) := by
  unfold climbTail
  cases ts with
  | nil =>
    cases n with
    | zero => intro e1 ts1 h; exact absurd h (by simp [exec])
    | succ n =>
      show Only _ _ (step (exec n) _ _)
      rw [step_err _ t 28 (by decide) e [] he]
      refine only_call hz n .reSync (Act.run_ne _ _ he) (hx.note (.err t 28) rfl ?_) (by simp) (by simp [argOf]) trivial
      intro m hm
      simp only [Act.nums, List.mem_singleton] at hm
      subst hm
      exact ⟨by decide, .inr rfl⟩
  | cons nt2 ts =>
    dsimp only
    refine Only.andThen ?_ fun e1 ts1 _ h1 h2 h3 => only_endTail hz n h2 h1 h3
    have harg : ∀ u ∈ [nt2], u ∈ pre ++ z ∧ Late (Tail3 pre z) e u := by
      intro u hu
      rw [List.mem_singleton] at hu
      subst hu
      have := hts u (by simp)
      exact ⟨tail3_mem this, .inl this⟩
    have hts' : ∀ u ∈ ts, Tail3 pre z u := fun u hu => hts u (by simp [hu])
    split
    · rename_i hb
      exact only_call hz n _ he hx hts' harg ⟨by simp [argOf], hb⟩
    · split
      · rename_i hb
        exact only_call hz n _ he hx hts' harg ⟨by simp [argOf], hb⟩
      · exact only_call hz n _ he hx hts' harg ⟨by simp [argOf], by decide⟩

theorem only_textBody (n : Nat) {t : Token} (ht : Typed t) (hb : t.base = .TOO_LONG) {e0 e : Ers F} {ts : List Token} (he : e.recs ≠ [])
    (hx : Ext2 (Tail3 pre z) e0 e) (hts : ∀ t ∈ ts, Tail3 pre z t) : Only (Tail3 pre z) e0 (textBody (exec n) t e ts he) := by
  unfold textBody
  rw [if_neg (by rw [too_long_sub ht hb]; simp [endsBreak])]
  exact only_textTail hz n (Act.run_ne _ _ he) (hx.note (.text t) rfl (by simp [Act.nums])) hts

end

/-! ### Two runs -/

section
variable (pre x y : List Token)

/-- The results of two runs. -/
inductive Duo : Res F → Res F → Prop
  | left (u r) : Duo (.error u) r
  | right (r u) : Duo r (.error u)
  | same (e p) (he : e.recs ≠ []) (hp : p <:+ pre) : Duo (done e (p ++ x)) (done e (p ++ y))
  | apart (e0) (r1 r2) (h1 : Only (Tail3 pre x) e0 r1) (h2 : Only (Tail3 pre y) e0 r2) : Duo r1 r2

/-- Where the argument of a call comes from: it was the last token taken, it is still in the list, or it was refused with error 48. -/
def Arg (p : List Token) (e : Ers F) (t : Token) : Prop :=
  t ∈ pre ∧ ((t :: p) <:+ pre ∨ t ∈ p ∨ errRec t 48 ∈ e.errs)

variable {pre x y} (hx : ∀ t ∈ pre ++ x, Typed t) (hy : ∀ t ∈ pre ++ y, Typed t)
include hx hy

theorem Duo.andThen {r1 r2 : Res F} {k : Ers F → List Token → Res F} (h : Duo pre x y r1 r2)
    (hs : ∀ e p, e.recs ≠ [] → p <:+ pre → r1 = done e (p ++ x) → Duo pre x y (k e (p ++ x)) (k e (p ++ y)))
    (h1 : ∀ e0 e ts, r1 = done e ts → Ext2 (Tail3 pre x) e0 e → e.recs ≠ [] → (∀ t ∈ ts, Tail3 pre x t) →
      Only (Tail3 pre x) e0 (k e ts))
    (h2 : ∀ e0 e ts, r2 = done e ts → Ext2 (Tail3 pre y) e0 e → e.recs ≠ [] → (∀ t ∈ ts, Tail3 pre y t) →
      Only (Tail3 pre y) e0 (k e ts)) : Duo pre x y (andThen r1 k) (andThen r2 k) := by
  cases h with
  | left u r => exact .left u _
  | right r u => exact .right _ u
  | same e p he hp => exact hs e p he hp rfl
  | apart e0 _ _ g1 g2 => exact .apart e0 _ _ (g1.andThen fun _ _ => h1 e0 _ _) (g2.andThen fun _ _ => h2 e0 _ _)

theorem arg_late {z p : List Token} (hp : p <:+ pre) (hl : p.length ≤ 2) {e : Ers F} {t : Token} (h : Arg pre p e t) :
    t ∈ pre ++ z ∧ Late (Tail3 pre z) e t := by
  refine ⟨List.mem_append_left _ h.1, ?_⟩
  rcases h.2 with h | h | h
  · exact .inl (.inl (short_tail h (by simp only [List.length_cons]; omega) (by simp)))
  · exact .inl (.inl (short_tail hp (by omega) h))
  · exact .inr h

omit hx hy in
theorem late_toks {z p : List Token} (hp : p <:+ pre) (hl : p.length ≤ 2) : ∀ t ∈ p ++ z, Tail3 pre z t := by
  intro t ht
  rcases List.mem_append.1 ht with h | h
  · exact .inl (short_tail hp (by omega) h)
  · exact .inr h

/-- At the end of the common beginning the runs part. -/
theorem duo_end (n : Nat) (c : Call) {e : Ers F} {p : List Token} (he : e.recs ≠ []) (hp : p <:+ pre) (hl : p.length ≤ 2)
    (ha : ∀ t ∈ argOf c, Arg pre p e t) (hc : PreD p c) :
    Duo pre x y (exec n c ⟨e, p ++ x⟩) (exec n c ⟨e, p ++ y⟩) :=
  .apart e _ _
    (only_call hx n c he (Ext2.refl he) (late_toks hp hl) (fun t ht => arg_late hx hy hp hl (ha t ht)) (pre_more hc hl))
    (only_call hy n c he (Ext2.refl he) (late_toks hp hl) (fun t ht => arg_late hx hy hp hl (ha t ht)) (pre_more hc hl))

/-- The induction hypothesis. -/
def DuoIH (pre x y : List Token) (call : Call → ML F Unit) : Prop :=
  ∀ c (e : Ers F) p, e.recs ≠ [] → p <:+ pre → (∀ t ∈ argOf c, Arg pre p e t) → PreD p c →
    Duo pre x y (call c ⟨e, p ++ x⟩) (call c ⟨e, p ++ y⟩)

end
end F15
