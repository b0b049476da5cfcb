import Verif.Lemmas.Causal
/-!
# The order in which errors are noted

While the tokens are read in order, every error noted is about a token that is not before those already complained about,
except error 28 and the errors about a point that was refused with error 48 (which is dealt with again after the rest has been read).
-/

namespace F15
open Spec

set_option linter.unusedSectionVars false
variable {F : Type} [PyFloat F]

/-- The record is error 28, or about a token refused according to `E`. -/
def Excused (E : List (Record F)) (b : Record F) : Prop := ∃ t n, b = errRec t n ∧ (n = 28 ∨ errRec t 48 ∈ E)

theorem Excused.mono {E E' : List (Record F)} {b : Record F} (h : Excused E b) (hs : ∀ r ∈ E, r ∈ E') : Excused E' b := by
  obtain ⟨t, n, h1, h2⟩ := h
  exact ⟨t, n, h1, h2.imp id (hs _)⟩

/-- The places of the elements. -/
def placesOf (e : Ers F) : List Nat := e.recs.map (·.start)

/-- The place is that of a token refused according to `E`. -/
def RefusedAt (E : List (Record F)) (b : Nat) : Prop := ∃ t : Token, t.start = b ∧ errRec t 48 ∈ E

/-- The invariant: errors (newest first) are in order, and not after the tokens still to come; and so are the elements. -/
structure InOrder (e : Ers F) (ts : List Token) : Prop where
  errs : e.errs.Pairwise fun b a => a.start ≤ b.start ∨ Excused e.errs b
  ahead : ∀ a ∈ e.errs, ∀ u ∈ ts, a.start ≤ u.start
  toks : ts.Pairwise fun t u => t.start ≤ u.start
  ne : e.recs ≠ []
  recs : (placesOf e).Pairwise fun b a => a ≤ b ∨ RefusedAt e.errs b
  aheadR : ∀ a ∈ placesOf e, ∀ u ∈ ts, a ≤ u.start

/-- The token may be complained about or recorded. -/
structure FreshTok (e : Ers F) (ts : List Token) (t : Token) : Prop where
  toks : ∀ u ∈ ts, t.start ≤ u.start
  errs : ((∀ a ∈ e.errs, a.start ≤ t.start) ∧ ∀ a ∈ placesOf e, a ≤ t.start) ∨ errRec t 48 ∈ e.errs

theorem InOrder.tail {e : Ers F} {t : Token} {ts : List Token} (h : InOrder e (t :: ts)) : InOrder e ts :=
  ⟨h.errs, fun a ha u hu => h.ahead a ha u (by simp [hu]), (List.pairwise_cons.1 h.toks).2, h.ne, h.recs,
    fun a ha u hu => h.aheadR a ha u (by simp [hu])⟩

theorem InOrder.fresh {e : Ers F} {t : Token} {ts : List Token} (h : InOrder e (t :: ts)) : FreshTok e ts t :=
  ⟨(List.pairwise_cons.1 h.toks).1, .inl ⟨fun a ha => h.ahead a ha t (by simp), fun a ha => h.aheadR a ha t (by simp)⟩⟩

theorem newRec_start (a : Act) (p : Record F) : (a.newRec p).start = a.tok.start := by
  cases a with
  | point t => unfold Act.newRec posHead; dsimp only; cases t.sub <;> rfl
  | vToI t => unfold Act.newRec posHead; dsimp only; cases t.sub <;> rfl
  | ccPoint t => unfold Act.newRec posHead; dsimp only; cases t.sub <;> rfl
  | brk t => unfold Act.newRec brkRules; dsimp only; cases t.sub <;> rfl
  | sid t => unfold Act.newRec asSid; dsimp only; first | rfl | (split <;> rfl)
  | star t => unfold Act.newRec asStar; dsimp only; first | rfl | (split <;> rfl)
  | _ => rfl

theorem keep_starts {l l' : List (Record F)} (h : All2 Keep l l') : l'.map (·.start) = l.map (·.start) := by
  induction h with
  | nil => rfl
  | cons h _ ih =>
    rw [List.map_cons, List.map_cons, ih]
    unfold Keep at h
    rw [h]

theorem run_starts (a : Act) {e : Ers F} (he : e.recs ≠ []) :
    placesOf (a.run e) = if a.records then a.tok.start :: placesOf e else placesOf e := by
  cases hr : e.recs with
  | nil => exact absurd hr he
  | cons p rs =>
    have h0 : (a.run e).recs = a.recs (p :: rs) := by rw [← hr]; rfl
    unfold placesOf
    rw [h0, hr]
    cases ha : a.records with
    | true =>
      obtain ⟨l', h1, h2⟩ := push_shape a ha p rs
      rw [h1, List.map_cons, newRec_start, keep_starts h2]; rfl
    | false =>
      rw [note_shape a ha, List.map_cons]
      have := tweak_ok a p
      unfold Tweak at this
      rw [this]; rfl

/-- An error may be noted, an element may be recorded. -/
theorem InOrder.run {e : Ers F} {ts : List Token} (h : InOrder e ts) (a : Act)
    (ht : (a.nums = [] ∧ a.records = false) ∨ (∀ u ∈ ts, a.tok.start ≤ u.start) ∧
      (((∀ r ∈ e.errs, r.start ≤ a.tok.start) ∧ ∀ r ∈ placesOf e, r ≤ a.tok.start) ∨ errRec a.tok 48 ∈ e.errs ∨
        (a.nums = [28] ∧ a.records = false))) :
    InOrder (a.run e) ts := by
  have hst := run_starts a h.ne
  rcases ht with ⟨ht, hr⟩ | ⟨h1, h2⟩
  · have : (a.run e).errs = e.errs := by rw [run_errs, ht]; rfl
    rw [hr] at hst
    exact ⟨by rw [this]; exact h.errs, by rw [this]; exact h.ahead, h.toks, a.run_ne e h.ne, by rw [hst, this]; exact h.recs,
      by rw [hst]; exact h.aheadR⟩
  have hrefd : ∀ {b}, RefusedAt e.errs b → RefusedAt (a.run e).errs b := fun ⟨t, h1, h2⟩ =>
    ⟨t, h1, by rw [run_errs]; exact List.mem_append_right _ h2⟩
  refine ⟨?_, ?_, h.toks, a.run_ne e h.ne, ?_, ?_⟩
  · rw [run_errs, List.pairwise_append]
    refine ⟨?_, h.errs.imp fun hab => hab.imp id fun h => h.mono fun r hr => List.mem_append_right _ hr, ?_⟩
    · refine List.Pairwise.imp_of_mem (R := fun _ _ => True) ?_ (List.pairwise_of_forall fun _ _ => trivial)
      intro x y hx hy _
      rw [List.mem_reverse, List.mem_map] at hx hy
      obtain ⟨n, _, rfl⟩ := hx
      obtain ⟨m, _, rfl⟩ := hy
      exact .inl (Nat.le_refl _)
    · intro x hx y hy
      rw [List.mem_reverse, List.mem_map] at hx
      obtain ⟨n, hn, rfl⟩ := hx
      rcases h2 with h2 | h2 | ⟨h2, _⟩
      · exact .inl (h2.1 y hy)
      · exact .inr ⟨_, _, rfl, .inr (List.mem_append_right _ h2)⟩
      · rw [h2, List.mem_singleton] at hn
        exact .inr ⟨_, _, rfl, .inl hn⟩
  · intro r hr u hu
    rw [run_errs, List.mem_append, List.mem_reverse, List.mem_map] at hr
    rcases hr with ⟨n, _, rfl⟩ | hr
    · exact h1 u hu
    · exact h.ahead r hr u hu
  · rw [hst]
    cases hr : a.records with
    | false => exact h.recs.imp fun hab => hab.imp id hrefd
    | true =>
      rw [if_pos rfl, List.pairwise_cons]
      refine ⟨?_, h.recs.imp fun hab => hab.imp id hrefd⟩
      intro y hy
      rcases h2 with h2 | h2 | ⟨_, h2⟩
      · exact .inl (h2.2 y hy)
      · exact .inr (hrefd ⟨_, rfl, h2⟩)
      · rw [hr] at h2; cases h2
  · intro x hx u hu
    rw [hst] at hx
    split at hx
    · rcases List.mem_cons.1 hx with rfl | hx
      · exact h1 u hu
      · exact h.aheadR x hx u hu
    · exact h.aheadR x hx u hu

theorem InOrder.act {e : Ers F} {ts : List Token} (h : InOrder e ts) (a : Act) (ht : FreshTok e ts a.tok) : InOrder (a.run e) ts :=
  h.run a (.inr ⟨ht.toks, ht.errs.imp id .inl⟩)

/-- The token may still be complained about after something has been done with it. -/
theorem FreshTok.act {e : Ers F} {ts : List Token} {t : Token} (hf : FreshTok e ts t) (he : e.recs ≠ []) (a : Act) (ha : a.tok = t) :
    FreshTok (a.run e) ts t := by
  refine ⟨hf.toks, ?_⟩
  rcases hf.errs with ⟨h, h'⟩ | h
  · refine .inl ⟨fun x hx => ?_, fun x hx => ?_⟩
    · rw [run_errs, List.mem_append, List.mem_reverse, List.mem_map] at hx
      rcases hx with ⟨n, _, rfl⟩ | hx
      · rw [ha]; exact Nat.le_refl _
      · exact h x hx
    · rw [run_starts a he] at hx
      split at hx
      · rcases List.mem_cons.1 hx with rfl | hx
        · rw [ha]; exact Nat.le_refl _
        · exact h' x hx
      · exact h' x hx
  · exact .inr (by rw [run_errs]; exact List.mem_append_right _ h)

/-- A run keeps the order. -/
def KeepsOrd (e : Ers F) (ts : List Token) (r : Res F) : Prop :=
  ∀ e1 ts1, r = done e1 ts1 → InOrder e1 ts1 ∧ (∀ x ∈ e.errs, x ∈ e1.errs) ∧ ts1 <:+ ts

theorem KeepsOrd.ret {e : Ers F} {ts : List Token} (h : InOrder e ts) : KeepsOrd e ts (done e ts) := by
  intro e1 ts1 h1; cases h1
  exact ⟨h, fun _ h => h, List.suffix_refl _⟩

theorem KeepsOrd.act {e : Ers F} {ts : List Token} {r : Res F} (a : Act) (h : KeepsOrd (a.run e) ts r) : KeepsOrd e ts r := by
  intro e1 ts1 h1
  obtain ⟨k1, k2, k3⟩ := h e1 ts1 h1
  exact ⟨k1, fun x hx => k2 x (by rw [run_errs]; exact List.mem_append_right _ hx), k3⟩

theorem KeepsOrd.pop {e : Ers F} {t : Token} {ts : List Token} {r : Res F} (h : KeepsOrd e ts r) : KeepsOrd e (t :: ts) r := by
  intro e1 ts1 h1
  obtain ⟨k1, k2, k3⟩ := h e1 ts1 h1
  exact ⟨k1, k2, k3.trans (List.suffix_cons t ts)⟩

theorem KeepsOrd.andThen {e : Ers F} {ts : List Token} {r : Res F} {k : Ers F → List Token → Res F} (h : KeepsOrd e ts r)
    (hk : ∀ e1 ts1, InOrder e1 ts1 → (∀ x ∈ e.errs, x ∈ e1.errs) → ts1 <:+ ts → r = done e1 ts1 → KeepsOrd e1 ts1 (k e1 ts1)) :
    KeepsOrd e ts (andThen r k) := by
  intro e2 ts2 h2
  cases r with
  | error x => cases h2
  | ok q =>
    obtain ⟨u, e1, ts1⟩ := q
    obtain ⟨h3, h4, h5⟩ := h e1 ts1 rfl
    obtain ⟨k1, k2, k3⟩ := hk e1 ts1 h3 h4 h5 rfl e2 ts2 h2
    exact ⟨k1, fun x hx => k2 x (h4 x hx), k3.trans h5⟩

/-- The induction hypothesis. -/
def OrdIH (T : List Token) (call : Call → ML F Unit) : Prop :=
  ∀ c e ts, InOrder e ts → ts <:+ T → (∀ t ∈ argOf c, t ∈ T ∧ FreshTok e ts t) → Pre T ts c → KeepsOrd e ts (call c ⟨e, ts⟩)

/-- Error 28 can be noted at any time. -/
def Ord28 (call : Call → ML F Unit) : Prop :=
  ∀ t e, InOrder e [] → KeepsOrd e [] (call (.addErrorAndReSync t 28) ⟨e, []⟩)

/-- An error reported remains. -/
def Kept48 (T : List Token) (call : Call → ML F Unit) : Prop :=
  ∀ t e ts e1 ts1, t ∈ T → e.recs ≠ [] → ts <:+ T → call (.addErrorAndReSync t 48) ⟨e, ts⟩ = done e1 ts1 → errRec t 48 ∈ e1.errs

section
variable {T : List Token} {call : Call → ML F Unit} (ih : OrdIH T call) (ih28 : Ord28 call) (ih48 : Kept48 T call) (hT : ∀ t ∈ T, Typed t)
variable {e : Ers F} {ts : List Token} (ho : InOrder e ts) (hs : ts <:+ T)
include ih ho hs

theorem OrdIH.one {c : Call} {t : Token} (ha : argOf c = [t]) (ht : t ∈ T) (hf : FreshTok e ts t) (hp : Pre T ts c) :
    KeepsOrd e ts (call c ⟨e, ts⟩) :=
  ih c e ts ho hs (fun u hu => by rw [ha, List.mem_singleton] at hu; subst hu; exact ⟨ht, hf⟩) hp

theorem OrdIH.none {c : Call} (ha : argOf c = []) (hp : Pre T ts c) : KeepsOrd e ts (call c ⟨e, ts⟩) :=
  ih c e ts ho hs (fun u hu => by rw [ha] at hu; cases hu) hp

set_option hygiene false in
local macro "fin" : tactic => `(tactic| (first
  | exact OrdIH.one ih ho hs (by rfl) hm hf (by simp [Pre, *]; try decide)
  | exact OrdIH.none ih ho hs (by rfl) (by simp [Pre])
  | exact KeepsOrd.ret ho))

set_option hygiene false in
/-- Take the next token. -/
local macro "pop" : tactic => `(tactic| (
  refine KeepsOrd.pop ?_
  have hm := hs.subset (List.mem_cons_self ..)
  have hj := hs
  have hf := ho.fresh
  replace ho := ho.tail
  replace hs := (List.suffix_cons _ _).trans hs
  try dsimp only))

theorem or_err {t : Token} {n : Nat} (hf : FreshTok e ts t) (hn : plainErr n = true) :
    KeepsOrd e ts (step call (.addErrorAndReSync t n) ⟨e, ts⟩) := by
  rw [step_err call t n (plainErr.isSome hn) e ts ho.ne]
  refine KeepsOrd.act (.err t n) ?_
  exact OrdIH.none ih (ho.act (.err t n) hf) hs rfl trivial

theorem or_postAdep {t : Token} (hm : t ∈ T) (hf : FreshTok e ts t) : KeepsOrd e ts (step call (.postAdep t) ⟨e, ts⟩) := by
  show KeepsOrd e ts (postAdep call t ⟨e, ts⟩)
  unfold postAdep
  cases hb : t.base
  all_goals fin

theorem or_postPoint {t : Token} (hm : t ∈ T) (hf : FreshTok e ts t) : KeepsOrd e ts (step call (.postPoint t) ⟨e, ts⟩) := by
  rw [step_postPoint call t e ts ho.ne]
  cases hb : t.base
  case ROUTE =>
    dsimp only
    split
    · fin
    · fin
  all_goals fin

theorem or_breakEndError {t : Token} (hm : t ∈ T) (hf : FreshTok e ts t) : KeepsOrd e ts (step call (.breakEndError t) ⟨e, ts⟩) := by
  show KeepsOrd e ts (breakEndError call t ⟨e, ts⟩)
  unfold breakEndError
  split
  · fin
  · split
    · fin
    · split
      · fin
      · fin

theorem or_truncate : KeepsOrd e ts (step call .truncate ⟨e, ts⟩) := by
  rw [step_truncate]
  cases ts with
  | nil => fin
  | cons nt ts => pop; fin

theorem or_postSid : KeepsOrd e ts (step call .postSid ⟨e, ts⟩) := by
  rw [step_postSid]
  cases ts with
  | nil => fin
  | cons nt ts =>
    pop
    cases hb : nt.base
    all_goals fin

theorem or_slash {t : Token} (hm : t ∈ T) (hf : FreshTok e ts t) : KeepsOrd e ts (step call (.forwardSlash t) ⟨e, ts⟩) := by
  rw [step_slash]
  cases ts with
  | nil => fin
  | cons nt ts =>
    clear hm hf
    pop
    cases hb : nt.base
    all_goals fin

theorem or_reSync : KeepsOrd e ts (step call .reSync ⟨e, ts⟩) := by
  rw [step_reSync]
  cases ts with
  | nil => fin
  | cons t ts =>
    pop
    cases hb : t.base
    case SLASH =>
      dsimp only
      cases ts with
      | nil => fin
      | cons nt ts =>
        clear hm hf
        pop
        cases hb : nt.base
        all_goals fin
    all_goals fin

theorem or_stay {t : Token} (hm : t ∈ T) (hf : FreshTok e ts t) : KeepsOrd e ts (step call (.stay t) ⟨e, ts⟩) := by
  rw [step_stay]
  cases ts with
  | nil => fin
  | cons nt ts =>
    clear hm hf
    pop
    split
    · fin
    · cases ts with
      | nil => fin
      | cons nt2 ts =>
        clear hm hf
        pop
        split
        · fin
        · rename_i h
          exact OrdIH.one ih ho hs rfl hm hf ⟨hm, Decidable.not_not.1 h⟩

theorem or_textTail : KeepsOrd e ts (textTail call e ts) := by
  unfold textTail
  cases ts with
  | nil => fin
  | cons nt ts => pop; fin

theorem or_endTail : KeepsOrd e ts (endTail call e ts) := by
  unfold endTail
  cases ts with
  | nil => fin
  | cons nt ts => pop; fin

include hT

theorem or_point {t : Token} (hm : t ∈ T) (hf : FreshTok e ts t) : KeepsOrd e ts (step call (.point t) ⟨e, ts⟩) := by
  rw [step_point call t (hT t hm) e ts ho.ne]
  refine KeepsOrd.act (.point t) ?_
  replace ho := ho.act (.point t) hf
  cases ts with
  | nil => fin
  | cons nt ts => clear hm hf; pop; fin

theorem or_dct {t : Token} (hm : t ∈ T) (hf : FreshTok e ts t) : KeepsOrd e ts (step call (.dct t) ⟨e, ts⟩) := by
  rw [step_dct call t e ts ho.ne]
  refine KeepsOrd.act (.plain t) ?_
  replace ho := ho.act (.plain t) hf
  cases ts with
  | nil => fin
  | cons nt ts =>
    clear hm hf
    pop
    cases hb : nt.base
    all_goals fin

theorem or_sid {t : Token} (hm : t ∈ T) (hf : FreshTok e ts t) : KeepsOrd e ts (step call (.sid t) ⟨e, ts⟩) := by
  rw [step_sid call t e ts ho.ne]
  split
  · refine KeepsOrd.act (.sid t) ?_
    replace ho := ho.act (.sid t) hf
    exact OrdIH.none ih ho hs rfl trivial
  · refine KeepsOrd.act (.plain t) ?_
    have hf' := hf.act ho.ne (.plain t) rfl
    replace ho := ho.act (.plain t) hf
    exact OrdIH.one ih ho hs rfl hm hf' ⟨hm, by decide⟩

theorem or_sidStar {t : Token} (hm : t ∈ T) (hf : FreshTok e ts t) : KeepsOrd e ts (step call (.sidStar t) ⟨e, ts⟩) := by
  rw [step_sidStar call t e ts ho.ne]
  split
  · refine KeepsOrd.act (.sid t) ?_
    replace ho := ho.act (.sid t) hf
    exact OrdIH.none ih ho hs rfl trivial
  · cases ts with
    | nil => exact KeepsOrd.act (.star t) (.ret (ho.act (.star t) hf))
    | cons pk ts =>
      refine KeepsOrd.act (.plain t) ?_
      replace ho := ho.act (.plain t) hf
      have hf' : FreshTok _ (pk :: ts) pk := ⟨fun u hu => by
        rcases List.mem_cons.1 hu with rfl | hu
        · exact Nat.le_refl _
        · exact ho.fresh.toks u hu, ho.fresh.errs⟩
      have hm' : pk ∈ T := hs.subset (by simp)
      clear hm hf
      have hm := hm'
      have hf := hf'
      fin

theorem or_star {t : Token} (hm : t ∈ T) (hf : FreshTok e ts t) : KeepsOrd e ts (step call (.star t) ⟨e, ts⟩) := by
  rw [step_star call t e ts ho.ne]
  cases ts with
  | nil => exact KeepsOrd.act (.star t) (.ret (ho.act (.star t) hf))
  | cons pk ts =>
    refine KeepsOrd.act (.plain t) ?_
    replace ho := ho.act (.plain t) hf
    have hf' : FreshTok _ (pk :: ts) pk := ⟨fun u hu => by
      rcases List.mem_cons.1 hu with rfl | hu
      · exact Nat.le_refl _
      · exact ho.fresh.toks u hu, ho.fresh.errs⟩
    have hm' : pk ∈ T := hs.subset (by simp)
    clear hm hf
    have hm := hm'
    have hf := hf'
    fin

theorem or_stayTime {t : Token} (hm : t ∈ T) (hf : FreshTok e ts t) (hb : t.base = .STAY_TIME) :
    KeepsOrd e ts (step call (.stayTime t) ⟨e, ts⟩) := by
  rw [step_stayTime call t (stay_facts (hT t hm) hb) e ts ho.ne]
  refine KeepsOrd.act (.stay t) ?_
  replace ho := ho.act (.stay t) hf
  cases ts with
  | nil => fin
  | cons nt ts =>
    clear hm hf
    pop
    cases hb : nt.base
    all_goals fin

theorem or_breakStart {t : Token} (hm : t ∈ T) (hf : FreshTok e ts t) : KeepsOrd e ts (step call (.breakStart t) ⟨e, ts⟩) := by
  rw [step_breakStart call t e ts ho.ne]
  refine KeepsOrd.act (.brk t) ?_
  replace ho := ho.act (.brk t) hf
  cases ts with
  | nil => fin
  | cons nt ts =>
    clear hm hf
    pop
    split <;> fin

theorem or_textBody {t : Token} (hm : t ∈ T) (hf : FreshTok e ts t ∨ t.base = .TOO_LONG)
    (hj : t.base = .TOO_LONG ∨ t :: ts <:+ T) :
    KeepsOrd e ts (textBody call t e ts ho.ne) := by
  have ho' := ho.run (.text t) (.inl ⟨rfl, rfl⟩)
  unfold textBody
  split
  · rename_i hb
    have hj' : t :: ts <:+ T := hj.resolve_left fun hl => by rw [long_no_end (hT t hm) hl] at hb; cases hb
    have hf : FreshTok e ts t := by
      rcases hf with hf | hf
      · exact hf
      · rw [too_long_sub (hT t hm) hf] at hb; simp [endsBreak] at hb
    refine KeepsOrd.act (.text t) ?_
    refine KeepsOrd.andThen (OrdIH.one ih ho' hs rfl hm (hf.act ho.ne (.text t) rfl) hj') fun e1 ts1 h1 h2 h3 _ => ?_
    exact or_textTail ih h1 (h3.trans hs)
  · refine KeepsOrd.act (.text t) ?_
    exact or_textTail ih ho' hs

theorem or_text {t : Token} (hj : t :: ts <:+ T) (hm : t ∈ T) (hf : FreshTok e ts t) : KeepsOrd e ts (step call (.breakTextSave t) ⟨e, ts⟩) := by
  by_cases hb : t.base = .TOO_LONG
  · rw [step_text_long call t e ts hb]
    refine KeepsOrd.andThen (by fin) fun e1 ts1 h1 h2 h3 _ => ?_
    rw [dif_pos h1.ne]
    exact or_textBody ih hT h1 (h3.trans hs) hm (.inr hb) (.inl hb)
  · rw [step_text call t e ts ho.ne hb]
    exact or_textBody ih hT ho hs hm (.inl hf) (.inr hj)

theorem or_C {t : Token} (hm : t ∈ T) (hf : FreshTok e ts t) : KeepsOrd e ts (step call (.cruiseClimbC t) ⟨e, ts⟩) := by
  rw [step_C call t e ts ho.ne]
  have ho' := ho.act (.plain t) hf
  cases ts with
  | nil => exact KeepsOrd.act (.plain t) (.ret ho')
  | cons nt ts =>
    clear hm hf
    dsimp only
    cases hb' : nt.base
    case UNKNOWN | SPEED_VFR | SPEED_ALTITUDE | BREAK_END | SPEED_ALTITUDE_ALTITUDE | SPEED_ALTITUDE_PLUS | TOO_LONG |
        STAY_TIME =>
      pop
      fin
    case SLASH =>
      dsimp only
      cases ts with
      | nil =>
        refine KeepsOrd.act (.plain t) ?_
        replace ho := ho'
        pop
        fin
      | cons nt2 ts =>
        pop
        clear hm hf
        pop
        fin
    all_goals
      refine KeepsOrd.act (.plain t) ?_
      replace ho := ho'
      pop
      fin

theorem or_breakEnd {t : Token} (hw : t :: ts <:+ T) : KeepsOrd e ts (step call (.breakEnd t) ⟨e, ts⟩) := by
  rw [step_breakEnd]
  cases ts with
  | nil => fin
  | cons p ts' =>
    have hm : p ∈ T := hs.subset (by simp)
    have hf : FreshTok e (p :: ts') p := ⟨fun u hu => by
      rcases List.mem_cons.1 hu with rfl | hu
      · exact Nat.le_refl _
      · exact ho.fresh.toks u hu, ho.fresh.errs⟩
    dsimp only
    split
    · fin
    rename_i hp
    split
    · cases ts' with
      | nil => fin
      | cons sl ts'' =>
        dsimp only
        split
        · fin
        rename_i hsl
        cases ts'' with
        | nil => fin
        | cons sp ts3 =>
          dsimp only
          split
          · rename_i hsp
            refine KeepsOrd.andThen (OrdIH.none ih ho hs rfl
              ⟨p, sl, sp, ts3, rfl, Decidable.not_not.1 hp, Decidable.not_not.1 hsl, hsp⟩) fun e1 ts1 h1 h2 h3 _ => ?_
            exact or_endTail ih h1 (h3.trans hs)
          · split
            · rename_i hsp
              refine KeepsOrd.andThen (OrdIH.none ih ho hs rfl
                ⟨p, sl, sp, ts3, rfl, Decidable.not_not.1 hp, Decidable.not_not.1 hsl, hsp, t, by assumption, hw⟩) fun e1 ts1 h1 h2 h3 _ => ?_
              exact or_endTail ih h1 (h3.trans hs)
            · fin
    · clear hm hf
      pop
      fin

theorem or_level {t : Token} (hm : t ∈ T) (hf : FreshTok e ts t) (hb : t.base = .SPEED_ALTITUDE) :
    KeepsOrd e ts (step call (.assignSpeedAltitude t) ⟨e, ts⟩) := by
  rw [step_level call t (hT t hm) hb e ts ho.ne]
  refine KeepsOrd.act (.level t) ?_
  replace ho := ho.act (.level t) hf
  cases ts with
  | nil => fin
  | cons nt ts =>
    clear hm hf
    pop
    split <;> fin

theorem or_levelsK (a : Act) (hf : FreshTok e ts a.tok) : KeepsOrd e ts (levelsK call a e ts) := by
  refine KeepsOrd.act a ?_
  replace ho := ho.act a hf
  unfold levelsK
  cases ts with
  | nil => fin
  | cons nt ts => clear hf; pop; fin

theorem or_levels {t : Token} (hm : t ∈ T) (hf : FreshTok e ts t) (hb : t.base = .SPEED_ALTITUDE_ALTITUDE) :
    KeepsOrd e ts (step call (.assignSpeedAltitudeAltitude t) ⟨e, ts⟩) := by
  by_cases hbad : t.sub ∈ ccBad
  · rw [step_levels_bad call t (hT t hm) hbad e ts ho.ne]
    intro e1 ts1 h; cases h
  · rw [step_levels call t (hT t hm) hb hbad e ts ho.ne]
    exact or_levelsK ih hT ho hs (.levels t) hf

theorem or_plus {t : Token} (hm : t ∈ T) (hf : FreshTok e ts t) (hb : t.base = .SPEED_ALTITUDE_PLUS) :
    KeepsOrd e ts (step call (.assignSpeedAltitudePlus t) ⟨e, ts⟩) := by
  rw [step_plus call t (hT t hm) hb e ts ho.ne]
  exact or_levelsK ih hT ho hs (.plus t) hf

theorem or_vfr {t : Token} (hm : t ∈ T) (hf : FreshTok e ts t) (hb : t.base = .SPEED_VFR) :
    KeepsOrd e ts (step call (.assignSpeedVfr t) ⟨e, ts⟩) := by
  rw [step_vfr call t (hT t hm) hb e ts ho.ne]
  refine KeepsOrd.act (.vfr t) ?_
  replace ho := ho.act (.vfr t) hf
  cases ts with
  | nil => fin
  | cons nt ts => clear hm hf; pop; fin

theorem or_vToI {p sl sp : Token} (hts : ∃ rest, ts = p :: sl :: sp :: rest) (hsp : sp.base = .SPEED_ALTITUDE) :
    KeepsOrd e ts (step call .vToI ⟨e, ts⟩) := by
  obtain ⟨rest, rfl⟩ := hts
  have hp : p ∈ T := hs.subset (by simp)
  rw [step_vToI call p sl sp (hT p hp) e rest ho.ne]
  have hf' : FreshTok e (p :: sl :: sp :: rest) p := ⟨fun u hu => by
      rcases List.mem_cons.1 hu with rfl | hu
      · exact Nat.le_refl _
      · exact ho.fresh.toks u hu, ho.fresh.errs⟩
  refine KeepsOrd.act (.vToI p) ?_
  replace ho := ho.act (.vToI p) hf'
  pop
  clear hm hf
  pop
  clear hm hf
  pop
  fin

theorem or_vToIToV {p sl sp : Token} (hts : ∃ rest, ts = p :: sl :: sp :: rest) (hsp : sp.base = .SPEED_VFR) :
    KeepsOrd e ts (step call .vToIToV ⟨e, ts⟩) := by
  obtain ⟨rest, rfl⟩ := hts
  rw [step_vToIToV call p sl sp e rest ho.ne]
  have hf' : FreshTok e (p :: sl :: sp :: rest) p := ⟨fun u hu => by
      rcases List.mem_cons.1 hu with rfl | hu
      · exact Nat.le_refl _
      · exact ho.fresh.toks u hu, ho.fresh.errs⟩
  refine KeepsOrd.act (.vToIToV p) ?_
  replace ho := ho.act (.vToIToV p) hf'
  pop
  clear hm hf
  pop
  clear hm hf
  pop
  fin

include ih48

theorem or_route {t : Token} (hm : t ∈ T) (hf : FreshTok e ts t) : KeepsOrd e ts (step call (.route t) ⟨e, ts⟩) := by
  rw [step_route call t e ts ho.ne]
  refine KeepsOrd.act (.route t) ?_
  replace ho := ho.act (.route t) hf
  cases ts with
  | nil => fin
  | cons nt ts =>
    clear hm hf
    pop
    cases hb : nt.base
    case POINT =>
      dsimp only
      split
      · refine KeepsOrd.andThen (by fin) fun e1 ts1 h1 h2 h3 h4 => ?_
        exact OrdIH.one ih h1 (h3.trans hs) rfl hm ⟨fun u hu => hf.toks u (h3.subset hu), .inr (ih48 _ _ _ _ _ hm ho.ne hs h4)⟩ hm
      · fin
    all_goals fin

omit ih48
include ih28

theorem or_climbTail (t : Token) : KeepsOrd e ts (climbTail call t e ts) := by
  unfold climbTail
  cases ts with
  | nil => exact ih28 t e ho
  | cons nt2 ts =>
    pop
    refine KeepsOrd.andThen ?_ fun e1 ts1 h1 _ h3 _ => or_endTail ih h1 (h3.trans hs)
    split
    · fin
    · split
      · fin
      · fin

theorem or_ccPoint {t : Token} (hm : t ∈ T) (hf : FreshTok e ts t) : KeepsOrd e ts (step call (.cruiseClimbPoint t) ⟨e, ts⟩) := by
  rw [step_ccPoint call t (hT t hm) e ts ho.ne]
  refine KeepsOrd.act (.ccPoint t) ?_
  have hf' := hf.act ho.ne (.ccPoint t) rfl
  replace ho := ho.act (.ccPoint t) hf
  clear hf
  have hf := hf'
  have kk := fun e1 ts1 (h1 : InOrder e1 ts1) (h2 : ts1 <:+ T) => or_climbTail (e := e1) (ts := ts1) ih ih28 hT h1 h2 t
  unfold climbTail at kk
  dsimp only
  cases ts with
  | nil => fin
  | cons nt ts =>
    clear hm hf
    pop
    split
    · exact KeepsOrd.andThen (by fin) fun e1 ts1 h1 _ h3 _ => kk _ _ h1 (h3.trans hs)
    · exact kk _ _ ho hs

end

theorem ord28 (n : Nat) : Ord28 (F := F) (exec n) := by
  intro t e ho e1 ts1 h
  cases n with
  | zero => exact absurd h (by simp [exec])
  | succ n =>
    change step (exec n) (.addErrorAndReSync t 28) ⟨e, []⟩ = _ at h
    rw [step_err _ t 28 (by decide) e [] ho.ne] at h
    cases n with
    | zero => exact absurd h (by simp [exec])
    | succ n =>
      change step (exec n) .reSync ⟨_, []⟩ = _ at h
      rw [step_reSync] at h
      cases h
      exact ⟨ho.run (.err t 28) (.inr ⟨(fun u hu => nomatch hu), .inr (.inr ⟨rfl, rfl⟩)⟩),
        fun x hx => by rw [run_errs]; exact List.mem_append_right _ hx, List.suffix_refl _⟩

/-- Every method keeps the errors in order. -/
theorem ord_exec {T : List Token} (hT : ∀ t ∈ T, Typed t) (n : Nat) : OrdIH (F := F) T (exec n) := by
  have ih48 : ∀ n, Kept48 (F := F) T (exec n) := fun n t e ts e1 ts1 ht he hs h => by
    refine err_kept (pre := T) (z := []) (by simpa using hT) (by decide) (by simpa using ht) he (by simpa using hs) h
  induction n with
  | zero => intro c e ts _ _ _ _ e1 ts1 h; exact absurd h (by simp [exec])
  | succ n ih =>
    intro c e ts ho hs ha hp
    show KeepsOrd e ts (step (exec n) c ⟨e, ts⟩)
    have ih28 := ord28 (F := F) n
    have one : ∀ t, argOf c = [t] → t ∈ T ∧ FreshTok e ts t := fun t h => ha t (by simp [h])
    cases c with
    | addErrorAndReSync t m => exact or_err ih ho hs (one t rfl).2 hp.2
    | assignSpeedAltitude t => exact or_level ih hT ho hs (one t rfl).1 (one t rfl).2 hp.2
    | assignSpeedAltitudeAltitude t => exact or_levels ih hT ho hs (one t rfl).1 (one t rfl).2 hp.2
    | assignSpeedAltitudePlus t => exact or_plus ih hT ho hs (one t rfl).1 (one t rfl).2 hp.2
    | assignSpeedVfr t => exact or_vfr ih hT ho hs (one t rfl).1 (one t rfl).2 hp.2
    | breakEnd t => exact or_breakEnd ih hT ho hs hp
    | breakEndError t => exact or_breakEndError ih ho hs (one t rfl).1 (one t rfl).2
    | breakStart t => exact or_breakStart ih hT ho hs (one t rfl).1 (one t rfl).2
    | breakTextSave t => exact or_text ih hT ho hs hp (one t rfl).1 (one t rfl).2
    | cruiseClimbC t => exact or_C ih hT ho hs (one t rfl).1 (one t rfl).2
    | cruiseClimbPoint t => exact or_ccPoint ih ih28 hT ho hs (one t rfl).1 (one t rfl).2
    | dct t => exact or_dct ih hT ho hs (one t rfl).1 (one t rfl).2
    | forwardSlash t => exact or_slash ih ho hs (one t rfl).1 (one t rfl).2
    | postAdep t => exact or_postAdep ih ho hs (one t rfl).1 (one t rfl).2
    | postPoint t => exact or_postPoint ih ho hs (one t rfl).1 (one t rfl).2
    | postSid => exact or_postSid ih ho hs
    | point t => exact or_point ih hT ho hs (one t rfl).1 (one t rfl).2
    | reSync => exact or_reSync ih ho hs
    | route t => exact or_route ih (ih48 n) hT ho hs (one t rfl).1 (one t rfl).2
    | sid t => exact or_sid ih hT ho hs (one t rfl).1 (one t rfl).2
    | sidStar t => exact or_sidStar ih hT ho hs (one t rfl).1 (one t rfl).2
    | star t => exact or_star ih hT ho hs (one t rfl).1 (one t rfl).2
    | stay t => exact or_stay ih ho hs (one t rfl).1 (one t rfl).2
    | stayTime t => exact or_stayTime ih hT ho hs (one t rfl).1 (one t rfl).2 hp.2
    | truncate => exact or_truncate ih ho hs
    | vToI =>
      obtain ⟨p, sl, sp, rest, h1, h2, h3, h4⟩ := hp
      exact or_vToI ih hT ho hs ⟨rest, h1⟩ h4
    | vToIToV =>
      obtain ⟨p, sl, sp, rest, h1, h2, h3, h4⟩ := hp
      exact or_vToIToV ih hT ho hs ⟨rest, h1⟩ h4.1

end F15
