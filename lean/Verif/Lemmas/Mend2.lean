import Verif.Lemmas.Mend
/-!
# Malformed words and their twins: the methods
-/

namespace F15
open Spec

set_option linter.unusedSectionVars false
set_option linter.unusedSimpArgs false
variable {F : Type} [PyFloat F]

/-- Calls of the same method with paired tokens. -/
inductive TwinCall (Z : List (Token × Token)) : List (Token × Token) → Call → Call → Prop
  | err {zs z n} : z ∈ Z → n ≠ 40 → (errorMessage n).isSome = true → TwinCall Z zs (.addErrorAndReSync z.1 n) (.addErrorAndReSync z.2 n)
  | level {zs z} : z ∈ Z → z.1.base = .SPEED_ALTITUDE → TwinCall Z zs (.assignSpeedAltitude z.1) (.assignSpeedAltitude z.2)
  | levels {zs z} : z ∈ Z → z.1.base = .SPEED_ALTITUDE_ALTITUDE →
      TwinCall Z zs (.assignSpeedAltitudeAltitude z.1) (.assignSpeedAltitudeAltitude z.2)
  | plus {zs z} : z ∈ Z → z.1.base = .SPEED_ALTITUDE_PLUS → TwinCall Z zs (.assignSpeedAltitudePlus z.1) (.assignSpeedAltitudePlus z.2)
  | vfr {zs z} : z ∈ Z → z.1.base = .SPEED_VFR → TwinCall Z zs (.assignSpeedVfr z.1) (.assignSpeedVfr z.2)
  | breakEnd {zs z} : z ∈ Z → TwinCall Z zs (.breakEnd z.1) (.breakEnd z.2)
  | breakEndError {zs z} : z ∈ Z → TwinCall Z zs (.breakEndError z.1) (.breakEndError z.2)
  | breakStart {zs z} : z ∈ Z → TwinCall Z zs (.breakStart z.1) (.breakStart z.2)
  | text {zs z} : z ∈ Z → TwinCall Z zs (.breakTextSave z.1) (.breakTextSave z.2)
  | C {zs z} : z ∈ Z → TwinCall Z zs (.cruiseClimbC z.1) (.cruiseClimbC z.2)
  | ccPoint {zs z} : z ∈ Z → TwinCall Z zs (.cruiseClimbPoint z.1) (.cruiseClimbPoint z.2)
  | dct {zs z} : z ∈ Z → TwinCall Z zs (.dct z.1) (.dct z.2)
  | slash {zs z} : z ∈ Z → TwinCall Z zs (.forwardSlash z.1) (.forwardSlash z.2)
  | postAdep {zs z} : z ∈ Z → TwinCall Z zs (.postAdep z.1) (.postAdep z.2)
  | postPoint {zs z} : z ∈ Z → TwinCall Z zs (.postPoint z.1) (.postPoint z.2)
  | postSid {zs} : TwinCall Z zs .postSid .postSid
  | point {zs z} : z ∈ Z → TwinCall Z zs (.point z.1) (.point z.2)
  | reSync {zs} : TwinCall Z zs .reSync .reSync
  | route {zs z} : z ∈ Z → TwinCall Z zs (.route z.1) (.route z.2)
  | sid {zs z} : z ∈ Z → TwinCall Z zs (.sid z.1) (.sid z.2)
  | sidStar {zs z} : z ∈ Z → TwinCall Z zs (.sidStar z.1) (.sidStar z.2)
  | star {zs z} : z ∈ Z → TwinCall Z zs (.star z.1) (.star z.2)
  | stay {zs z} : z ∈ Z → TwinCall Z zs (.stay z.1) (.stay z.2)
  | stayTime {zs z} : z ∈ Z → z.1.base = .STAY_TIME → TwinCall Z zs (.stayTime z.1) (.stayTime z.2)
  | truncate {zs} : TwinCall Z zs .truncate .truncate
  | vToI {p s l zs} : l.1.base = .SPEED_ALTITUDE → TwinCall Z (p :: s :: l :: zs) .vToI .vToI
  | vToIToV {p s l zs} : l.1.base = .SPEED_VFR → TwinCall Z (p :: s :: l :: zs) .vToIToV .vToIToV

/-- The results: the same behaviour, without a mark; or the exception, and the mark. -/
def TwinRes (Z : List (Token × Token)) (r r' : Res F) : Prop :=
  match r, r' with
  | _, .error _ => True
  | .ok (_, s), .ok (_, s') => Twin Z s.ers s'.ers ∧ ∃ zs, zs <:+ Z ∧ s.toks = olds zs ∧ s'.toks = news zs
  | .error _, .ok (_, s') => ∃ x ∈ s'.ers.errs, Mark Z x

/-- The continuation removes no error. -/
def Retains (k : Ers F → List Token → Res F) : Prop :=
  ∀ f us a s', k f us = .ok (a, s') → ∀ x ∈ f.errs, x ∈ s'.ers.errs

theorem Grows.retains {m : ML F Unit} (h : Grows m) {f : Ers F} {us : List Token} {a : Unit} {s' : St (List Token) F}
    (hm : m ⟨f, us⟩ = .ok (a, s')) : ∀ x ∈ f.errs, x ∈ s'.ers.errs := h.out _ _ _ hm

theorem Retains.endTail {call : Call → ML F Unit} (hc : ∀ c, Grows (call c)) : Retains (F15.endTail call) := by
  intro f us a s' h
  cases us with
  | nil => cases h; exact fun x hx => hx
  | cons u us => exact (hc _).retains h

theorem Retains.textTail {call : Call → ML F Unit} (hc : ∀ c, Grows (call c)) : Retains (F15.textTail call) := by
  intro f us a s' h
  cases us with
  | nil => cases h; exact fun x hx => hx
  | cons u us => exact (hc _).retains h

theorem Retains.andThen {r : Res F} {k : Ers F → List Token → Res F} {f : Ers F} {a : Unit} {s' : St (List Token) F}
    (hr : ∀ b s, r = .ok (b, s) → ∀ x ∈ f.errs, x ∈ s.ers.errs) (hk : Retains k)
    (h : F15.andThen r k = .ok (a, s')) : ∀ x ∈ f.errs, x ∈ s'.ers.errs := by
  cases r with
  | error => cases h
  | ok p => exact fun x hx => hk _ _ _ _ h x (hr p.1 p.2 rfl x hx)

theorem TwinRes.fail {Z : List (Token × Token)} (r : Res F) (y : PyErr) : TwinRes Z r (.error y) := by cases r <;> exact trivial

/-- One mark raised by the twin. -/
theorem marked {Z : List (Token × Token)} {r r' : Res F} (h : ∀ b s, r' = .ok (b, s) → ∃ x ∈ s.ers.errs, Mark Z x) (hr : ∃ x, r = .error x) :
    TwinRes Z r r' := by
  obtain ⟨x, rfl⟩ := hr
  cases r' with
  | error => exact trivial
  | ok p => exact h _ _ rfl

def TIH (Z : List (Token × Token)) (call : Call → ML F Unit) : Prop :=
  ∀ {c d zs e f}, TwinCall Z zs c d → zs <:+ Z → Twin Z e f → TwinRes Z (call c ⟨e, olds zs⟩) (call d ⟨f, news zs⟩)

theorem TwinRes.ret {Z zs : List (Token × Token)} {e f : Ers F} (k : Twin Z e f) (hs : zs <:+ Z) :
    TwinRes Z (done e (olds zs)) (done f (news zs)) := ⟨k, zs, hs, rfl, rfl⟩

theorem TwinRes.nil {Z : List (Token × Token)} {e f : Ers F} (k : Twin Z e f) : TwinRes Z (done e []) (done f []) :=
  ⟨k, [], List.nil_suffix, rfl, rfl⟩

theorem TwinRes.andThen {Z : List (Token × Token)} {r r' : Res F} {k k' : Ers F → List Token → Res F} (h : TwinRes Z r r')
    (hg : Retains k')
    (hk : ∀ e f zs, Twin Z e f → zs <:+ Z → TwinRes Z (k e (olds zs)) (k' f (news zs))) : TwinRes Z (andThen r k) (andThen r' k') := by
  cases r' with
  | error y => cases r <;> exact TwinRes.fail _ _
  | ok q =>
    obtain ⟨⟨⟩, f, us⟩ := q
    cases r with
    | error x =>
      obtain ⟨y, hy, hm⟩ := h
      refine marked (fun b s hs => ⟨y, ?_, hm⟩) ⟨x, rfl⟩
      exact hg f us b s hs y hy
    | ok p =>
      obtain ⟨⟨⟩, e, ts⟩ := p
      obtain ⟨h1, zs, h2, h3, h4⟩ := h
      dsimp only at h3 h4
      subst h3 h4
      exact hk e f zs h1 h2

theorem olds_cons (z : Token × Token) (zs : List (Token × Token)) : olds (z :: zs) = z.1 :: olds zs := rfl
theorem news_cons (z : Token × Token) (zs : List (Token × Token)) : news (z :: zs) = z.2 :: news zs := rfl

theorem TIH.apply {Z : List (Token × Token)} {call : Call → ML F Unit} (ih : TIH Z call) {c d zs e f} (h : TwinCall Z zs c d) (hs : zs <:+ Z)
    (k : Twin Z e f) : TwinRes Z (call c ⟨e, olds zs⟩) (call d ⟨f, news zs⟩) := ih h hs k

section
variable {Z : List (Token × Token)} (hz : Twins Z) {call : Call → ML F Unit} (ih : TIH Z call) (hc : ∀ c, Grows (call c))
variable {e f : Ers F} (k : Twin Z e f) {zs : List (Token × Token)} (hs : zs <:+ Z) {z : Token × Token} (hm : z ∈ Z)
include hz ih hc k hs

macro "mleaf" : tactic => `(tactic| first
  | exact TwinRes.nil (by assumption)
  | (refine TIH.apply (by assumption) ?_ (by assumption) (by assumption); first
    | exact .err (by assumption) (by decide) rfl
    | exact .level (by assumption) (by assumption)
    | exact .levels (by assumption) (by assumption)
    | exact .plus (by assumption) (by assumption)
    | exact .vfr (by assumption) (by assumption)
    | exact .breakEnd (by assumption)
    | exact .breakEndError (by assumption)
    | exact .breakStart (by assumption)
    | exact .text (by assumption)
    | exact .C (by assumption)
    | exact .ccPoint (by assumption)
    | exact .dct (by assumption)
    | exact .slash (by assumption)
    | exact .postAdep (by assumption)
    | exact .postPoint (by assumption)
    | exact .postSid
    | exact .point (by assumption)
    | exact .reSync
    | exact .route (by assumption)
    | exact .sid (by assumption)
    | exact .sidStar (by assumption)
    | exact .star (by assumption)
    | exact .stay (by assumption)
    | exact .stayTime (by assumption) (by assumption)
    | exact .truncate))

omit hz ih hc k hs in
theorem suf_rest {Z zs : List (Token × Token)} {z : Token × Token} (h : z :: zs <:+ Z) : z ∈ Z ∧ zs <:+ Z :=
  ⟨h.mem (by simp), (List.suffix_cons z zs).trans h⟩

theorem twin_point (hm : z ∈ Z) : TwinRes Z (step call (.point z.1) ⟨e, olds zs⟩) (step call (.point z.2) ⟨f, news zs⟩) := by
  rw [step_point call _ (hz.fst z hm) e _ k.ne, step_point call _ (hz.snd z hm) f _ k.ne']
  have k' := k.act hz (.point hm)
  cases zs with
  | nil => mleaf
  | cons nz zs =>
    obtain ⟨hn, hs⟩ := suf_rest hs
    exact ih (.postPoint hn) hs k'

theorem twin_route (hm : z ∈ Z) : TwinRes Z (step call (.route z.1) ⟨e, olds zs⟩) (step call (.route z.2) ⟨f, news zs⟩) := by
  rw [step_route call _ e _ k.ne, step_route call _ f _ k.ne']
  have k := k.act hz (.route hm)
  cases zs with
  | nil => mleaf
  | cons nz zs =>
    obtain ⟨hn, hs⟩ := suf_rest hs
    have hb' := hz.base hn
    have hs' := hz.ask hn isLlOrBd rfl rfl
    rw [olds_cons, news_cons]; dsimp only
    rw [← hb', ← hs']
    cases hb : nz.1.base
    case POINT =>
      dsimp only
      split
      · exact TwinRes.andThen (ih (.err hn (by decide) rfl) hs k) (fun f us a s' h => (hc _).retains h) fun e f zs k hs => by mleaf
      · mleaf
    all_goals dsimp only <;> mleaf

theorem twin_dct (hm : z ∈ Z) : TwinRes Z (step call (.dct z.1) ⟨e, olds zs⟩) (step call (.dct z.2) ⟨f, news zs⟩) := by
  rw [step_dct call _ e _ k.ne, step_dct call _ f _ k.ne']
  have k := k.act hz (.plain hm)
  cases zs with
  | nil => mleaf
  | cons nz zs =>
    obtain ⟨hn, hs⟩ := suf_rest hs
    have hb' := hz.base hn
    rw [olds_cons, news_cons]; dsimp only
    rw [← hb']
    cases hb : nz.1.base <;> dsimp only <;> mleaf

theorem twin_stayTime (hm : z ∈ Z) (h1 : z.1.base = .STAY_TIME) : TwinRes Z (step call (.stayTime z.1) ⟨e, olds zs⟩) (step call (.stayTime z.2) ⟨f, news zs⟩) := by
  have h2 : z.2.base = .STAY_TIME := by rw [← hz.base hm, h1]
  rw [step_stayTime call _ (stay_facts (hz.fst z hm) h1) e _ k.ne, step_stayTime call _ (stay_facts (hz.snd z hm) h2) f _ k.ne']
  have k := k.act hz (.stay hm)
  cases zs with
  | nil => mleaf
  | cons nz zs =>
    obtain ⟨hn, hs⟩ := suf_rest hs
    have hb' := hz.base hn
    rw [olds_cons, news_cons]; dsimp only
    rw [← hb']
    cases hb : nz.1.base <;> dsimp only <;> mleaf

omit hs in
theorem twin_len : e.recs.length = 1 ↔ f.recs.length = 1 := by rw [k.recs.lens]

theorem twin_sid (hm : z ∈ Z) : TwinRes Z (step call (.sid z.1) ⟨e, olds zs⟩) (step call (.sid z.2) ⟨f, news zs⟩) := by
  rw [step_sid call _ e _ k.ne, step_sid call _ f _ k.ne', k.recs.lens]
  have k1 := k.act hz (.sid hm)
  have k2 := k.act hz (.plain hm)
  split
  · exact ih .postSid hs k1
  · exact ih (.err hm (by decide) rfl) hs k2

theorem twin_sidStar (hm : z ∈ Z) : TwinRes Z (step call (.sidStar z.1) ⟨e, olds zs⟩) (step call (.sidStar z.2) ⟨f, news zs⟩) := by
  rw [step_sidStar call _ e _ k.ne, step_sidStar call _ f _ k.ne', k.recs.lens]
  have k1 := k.act hz (.sid hm)
  have k2 := k.act hz (.plain hm)
  have k3 := k.act hz (.star hm)
  split
  · exact ih .postSid hs k1
  · cases zs with
    | nil => exact .nil k3
    | cons nz zs => exact ih (.err (suf_rest hs).1 (by decide) rfl) hs k2

theorem twin_star (hm : z ∈ Z) : TwinRes Z (step call (.star z.1) ⟨e, olds zs⟩) (step call (.star z.2) ⟨f, news zs⟩) := by
  rw [step_star call _ e _ k.ne, step_star call _ f _ k.ne']
  have k2 := k.act hz (.plain hm)
  have k3 := k.act hz (.star hm)
  cases zs with
  | nil => exact .nil k3
  | cons nz zs => exact ih (.err (suf_rest hs).1 (by decide) rfl) hs k2

theorem twin_stay (hm : z ∈ Z) : TwinRes Z (step call (.stay z.1) ⟨e, olds zs⟩) (step call (.stay z.2) ⟨f, news zs⟩) := by
  rw [step_stay, step_stay]
  cases zs with
  | nil => exact ih (zs := []) (.err hm (by decide) rfl) hs k
  | cons nz zs =>
    obtain ⟨hn, hs⟩ := suf_rest hs
    rw [olds_cons, news_cons]; dsimp only
    rw [← hz.base hn]
    split
    · mleaf
    · cases zs with
      | nil => exact ih (zs := []) (.err hn (by decide) rfl) hs k
      | cons nz2 zs =>
        obtain ⟨hn2, hs⟩ := suf_rest hs
        rw [olds_cons, news_cons]; dsimp only
        rw [← hz.base hn2]
        split
        · mleaf
        · rename_i h
          exact ih (.stayTime hn2 (Decidable.not_not.1 h)) hs k

theorem twin_breakStart (hm : z ∈ Z) : TwinRes Z (step call (.breakStart z.1) ⟨e, olds zs⟩) (step call (.breakStart z.2) ⟨f, news zs⟩) := by
  rw [step_breakStart call _ e _ k.ne, step_breakStart call _ f _ k.ne']
  have k := k.act hz (.brk hm)
  cases zs with
  | nil => mleaf
  | cons nz zs =>
    obtain ⟨hn, hs⟩ := suf_rest hs
    rw [olds_cons, news_cons]; dsimp only
    rw [← hz.base hn]
    split <;> mleaf

theorem twin_textTail : TwinRes Z (textTail call e (olds zs)) (textTail call f (news zs)) := by
  cases zs with
  | nil => exact .nil k
  | cons nz zs => exact ih (.text (suf_rest hs).1) (suf_rest hs).2 k

theorem twin_textBody (hm : z ∈ Z) (he : e.recs ≠ []) (hf : f.recs ≠ []) :
    TwinRes Z (textBody call z.1 e (olds zs) he) (textBody call z.2 f (news zs) hf) := by
  have k' := k.act hz (.text hm)
  unfold textBody
  rw [k.head.1, hz.ask hm (fun u => endsBreak u (f.recs.head hf).rules) rfl rfl]
  split
  · exact TwinRes.andThen (ih (.breakEnd hm) hs k') (.textTail hc) fun e f zs k hs => twin_textTail hz ih hc k hs
  · exact twin_textTail hz ih hc k' hs

theorem twin_text (hm : z ∈ Z) : TwinRes Z (step call (.breakTextSave z.1) ⟨e, olds zs⟩) (step call (.breakTextSave z.2) ⟨f, news zs⟩) := by
  by_cases hb : z.1.base = .TOO_LONG
  · have hb' : z.2.base = .TOO_LONG := by rw [← hz.base hm, hb]
    rw [step_text_long call _ e _ hb, step_text_long call _ f _ hb']
    refine TwinRes.andThen (ih (.err hm (by decide) rfl) hs k) (fun f us a s' h => ?_) fun e f zs k hs => ?_
    · split at h
      · unfold textBody at h
        split at h
        · exact Retains.andThen (f := f) (fun b s hb x hx => (hc _).retains hb x (by rw [run_errs]; exact List.mem_append_right _ hx)) (.textTail hc) h
        · exact fun x hx => Retains.textTail hc _ _ _ _ h x (by rw [run_errs]; exact List.mem_append_right _ hx)
      · cases h
    rw [dif_pos k.ne, dif_pos k.ne']
    exact twin_textBody hz ih hc k hs hm k.ne k.ne'
  · have hb' : z.2.base ≠ .TOO_LONG := by rw [← hz.base hm]; exact hb
    rw [step_text call _ e _ k.ne hb, step_text call _ f _ k.ne' hb']
    exact twin_textBody hz ih hc k hs hm k.ne k.ne'

theorem twin_C (hm : z ∈ Z) : TwinRes Z (step call (.cruiseClimbC z.1) ⟨e, olds zs⟩) (step call (.cruiseClimbC z.2) ⟨f, news zs⟩) := by
  rw [step_C call _ e _ k.ne, step_C call _ f _ k.ne']
  have k' := k.act hz (.plain hm)
  cases zs with
  | nil => exact .nil k'
  | cons nz zs =>
    obtain ⟨hn, hs⟩ := suf_rest hs
    rw [olds_cons, news_cons]; dsimp only
    rw [← hz.base hn]
    cases hb : nz.1.base
    case SLASH =>
      dsimp only
      cases zs with
      | nil => exact ih (zs := []) (.err hn (by decide) rfl) hs k'
      | cons nz2 zs => exact ih (.ccPoint (suf_rest hs).1) (suf_rest hs).2 k
    case UNKNOWN | SPEED_VFR | SPEED_ALTITUDE | BREAK_END | SPEED_ALTITUDE_ALTITUDE | SPEED_ALTITUDE_PLUS | TOO_LONG |
        STAY_TIME => dsimp only; clear k'; mleaf
    all_goals dsimp only; clear k; mleaf

theorem twin_truncate : TwinRes Z (step call .truncate ⟨e, olds zs⟩) (step call .truncate ⟨f, news zs⟩) := by
  rw [step_truncate, step_truncate]
  cases zs with
  | nil => exact .nil k
  | cons nz zs => exact ih (.err (suf_rest hs).1 (by decide) rfl) (suf_rest hs).2 k

theorem twin_postSid : TwinRes Z (step call .postSid ⟨e, olds zs⟩) (step call .postSid ⟨f, news zs⟩) := by
  rw [step_postSid, step_postSid]
  cases zs with
  | nil => exact .nil k
  | cons nz zs =>
    obtain ⟨hn, hs⟩ := suf_rest hs
    rw [olds_cons, news_cons]; dsimp only
    rw [← hz.base hn]
    cases hb : nz.1.base <;> dsimp only <;> mleaf

theorem twin_slash (hm : z ∈ Z) : TwinRes Z (step call (.forwardSlash z.1) ⟨e, olds zs⟩) (step call (.forwardSlash z.2) ⟨f, news zs⟩) := by
  rw [step_slash, step_slash]
  cases zs with
  | nil => exact ih (zs := []) (.err hm (by decide) rfl) hs k
  | cons nz zs =>
    obtain ⟨hn, hs⟩ := suf_rest hs
    rw [olds_cons, news_cons]; dsimp only
    rw [← hz.base hn]
    cases hb : nz.1.base <;> dsimp only <;> mleaf

theorem twin_postPoint (hm : z ∈ Z) : TwinRes Z (step call (.postPoint z.1) ⟨e, olds zs⟩) (step call (.postPoint z.2) ⟨f, news zs⟩) := by
  rw [step_postPoint call _ e _ k.ne, step_postPoint call _ f _ k.ne', ← hz.base hm, k.head.2]
  cases hb : z.1.base
  case ROUTE => dsimp only; split <;> mleaf
  all_goals dsimp only; mleaf

theorem twin_postAdep (hm : z ∈ Z) : TwinRes Z (step call (.postAdep z.1) ⟨e, olds zs⟩) (step call (.postAdep z.2) ⟨f, news zs⟩) := by
  show TwinRes Z (postAdep call z.1 ⟨e, olds zs⟩) (postAdep call z.2 ⟨f, news zs⟩)
  unfold postAdep
  rw [← hz.base hm]
  cases hb : z.1.base <;> dsimp only <;> mleaf

theorem twin_breakEndError (hm : z ∈ Z) : TwinRes Z (step call (.breakEndError z.1) ⟨e, olds zs⟩) (step call (.breakEndError z.2) ⟨f, news zs⟩) := by
  show TwinRes Z (breakEndError call z.1 ⟨e, olds zs⟩) (breakEndError call z.2 ⟨f, news zs⟩)
  unfold breakEndError
  have a1 : (z.1.sub = .IFR) = (z.2.sub = .IFR) := hz.ask hm (fun u => u = .IFR) (by simp) (by simp)
  have a2 : (z.1.sub = .GAT) = (z.2.sub = .GAT) := hz.ask hm (fun u => u = .GAT) (by simp) (by simp)
  have a3 : (z.1.sub = .IFPSTART) = (z.2.sub = .IFPSTART) := hz.ask hm (fun u => u = .IFPSTART) (by simp) (by simp)
  simp only [a1, a2, a3]
  split
  · mleaf
  split
  · mleaf
  split
  · mleaf
  · exact .ret k hs

theorem twin_reSync : TwinRes Z (step call .reSync ⟨e, olds zs⟩) (step call .reSync ⟨f, news zs⟩) := by
  rw [step_reSync, step_reSync]
  cases zs with
  | nil => exact .nil k
  | cons nz zs =>
    obtain ⟨hn, hs⟩ := suf_rest hs
    rw [olds_cons, news_cons]; dsimp only
    rw [← hz.base hn]
    cases hb : nz.1.base
    case SLASH =>
      dsimp only
      cases zs with
      | nil => exact ih (zs := []) (.err hn (by decide) rfl) hs k
      | cons nz2 zs =>
        obtain ⟨hn2, hs⟩ := suf_rest hs
        rw [olds_cons, news_cons]; dsimp only
        rw [← hz.base hn2]
        cases hb2 : nz2.1.base <;> dsimp only <;> mleaf
    all_goals dsimp only; mleaf

theorem twin_level (hm : z ∈ Z) (hb : z.1.base = .SPEED_ALTITUDE) :
    TwinRes Z (step call (.assignSpeedAltitude z.1) ⟨e, olds zs⟩) (step call (.assignSpeedAltitude z.2) ⟨f, news zs⟩) := by
  have hb' : z.2.base = .SPEED_ALTITUDE := by rw [← hz.base hm, hb]
  rw [step_level call _ (hz.fst z hm) hb e _ k.ne, step_level call _ (hz.snd z hm) hb' f _ k.ne', k.recs.lens]
  have k := k.act hz (.level hm (by rw [hb]; decide))
  cases zs with
  | nil => mleaf
  | cons nz zs =>
    obtain ⟨hn, hs⟩ := suf_rest hs
    rw [olds_cons, news_cons]; dsimp only
    split <;> mleaf

theorem twin_levelsK {a b : Act} (h : TwinAct Z a b) : TwinRes Z (levelsK call a e (olds zs)) (levelsK call b f (news zs)) := by
  have k := k.act hz h
  cases zs with
  | nil => exact .nil k
  | cons nz zs => exact ih (.postPoint (suf_rest hs).1) (suf_rest hs).2 k

theorem twin_levels (hm : z ∈ Z) (hb : z.1.base = .SPEED_ALTITUDE_ALTITUDE) :
    TwinRes Z (step call (.assignSpeedAltitudeAltitude z.1) ⟨e, olds zs⟩) (step call (.assignSpeedAltitudeAltitude z.2) ⟨f, news zs⟩) := by
  have hb' : z.2.base = .SPEED_ALTITUDE_ALTITUDE := by rw [← hz.base hm, hb]
  by_cases hbad : z.1.sub ∈ ccBad
  · have h2 : z.2 = twin z.1 := by
      rcases hz.pair z hm with ⟨h, _⟩ | ⟨_, h⟩
      · exact absurd hbad h
      · exact h
    rw [step_levels_bad call _ (hz.fst z hm) hbad e _ k.ne,
      step_levels call _ (hz.snd z hm) hb' (by rw [h2]; show SubType.SPEED_ALTITUDE_NFF ∉ ccBad; decide) f _ k.ne']
    refine marked (fun b s hs => ⟨errRec z.2 40, ?_, z, hm, hbad, rfl⟩) ⟨_, rfl⟩
    have hin : errRec z.2 40 ∈ ((Act.levels z.2).run f).errs := by
      rw [run_errs]
      have : (Act.levels z.2).nums = [40] := by
        rw [h2]
        show granErr (lv1Of twinText) ++ granErr (lv2Of twinText) = [40]
        decide +kernel
      rw [this]; exact List.mem_append_left _ (by simp [Act.tok])
    unfold levelsK at hs
    split at hs
    · cases hs; exact hin
    · exact (hc _).retains hs _ hin
  · have h2 : z.2 = z.1 := by
      rcases hz.pair z hm with ⟨_, h⟩ | ⟨h, _⟩
      · exact h
      · exact absurd h hbad
    have hbad' : z.2.sub ∉ ccBad := by rw [h2]; exact hbad
    rw [step_levels call _ (hz.fst z hm) hb hbad e _ k.ne, step_levels call _ (hz.snd z hm) hb' hbad' f _ k.ne']
    exact twin_levelsK hz ih hc k hs (.levels hm hbad)

theorem twin_plus (hm : z ∈ Z) (hb : z.1.base = .SPEED_ALTITUDE_PLUS) :
    TwinRes Z (step call (.assignSpeedAltitudePlus z.1) ⟨e, olds zs⟩) (step call (.assignSpeedAltitudePlus z.2) ⟨f, news zs⟩) := by
  have hb' : z.2.base = .SPEED_ALTITUDE_PLUS := by rw [← hz.base hm, hb]
  rw [step_plus call _ (hz.fst z hm) hb e _ k.ne, step_plus call _ (hz.snd z hm) hb' f _ k.ne']
  exact twin_levelsK hz ih hc k hs (.plus hm (by rw [hb]; decide))

theorem twin_vfr (hm : z ∈ Z) (hb : z.1.base = .SPEED_VFR) :
    TwinRes Z (step call (.assignSpeedVfr z.1) ⟨e, olds zs⟩) (step call (.assignSpeedVfr z.2) ⟨f, news zs⟩) := by
  have hb' : z.2.base = .SPEED_VFR := by rw [← hz.base hm, hb]
  rw [step_vfr call _ (hz.fst z hm) hb e _ k.ne, step_vfr call _ (hz.snd z hm) hb' f _ k.ne']
  have k := k.act hz (.vfr hm (by rw [hb]; decide))
  cases zs with
  | nil => mleaf
  | cons nz zs => exact ih (.text (suf_rest hs).1) (suf_rest hs).2 k

theorem twin_endTail : TwinRes Z (endTail call e (olds zs)) (endTail call f (news zs)) := by
  cases zs with
  | nil => exact .nil k
  | cons nz zs => exact ih (.point (suf_rest hs).1) (suf_rest hs).2 k

theorem twin_breakEnd (hm : z ∈ Z) : TwinRes Z (step call (.breakEnd z.1) ⟨e, olds zs⟩) (step call (.breakEnd z.2) ⟨f, news zs⟩) := by
  rw [step_breakEnd, step_breakEnd]
  have hs0 := hs
  cases zs with
  | nil => exact .nil k
  | cons p zs =>
    obtain ⟨hp, hs⟩ := suf_rest hs
    rw [olds_cons, news_cons]; dsimp only
    have a1 : (z.1.sub = .IFR) = (z.2.sub = .IFR) := hz.ask hm (fun u => u = .IFR) (by simp) (by simp)
    rw [← hz.base hp]
    simp only [a1]
    split
    · exact .ret k hs0
    split
    · cases zs with
      | nil => exact ih (.err hp (by decide) rfl) hs0 k
      | cons sl zs =>
        obtain ⟨hsl, hs⟩ := suf_rest hs
        rw [olds_cons, news_cons]; dsimp only
        rw [← hz.base hsl]
        split
        · exact .ret k hs0
        · cases zs with
          | nil => exact ih (.err hp (by decide) rfl) hs0 k
          | cons sp zs =>
            obtain ⟨hsp, hs⟩ := suf_rest hs
            rw [olds_cons, news_cons]; dsimp only
            rw [← hz.base hsp]
            split
            · rename_i hb
              exact TwinRes.andThen (ih (.vToI hb) hs0 k) (.endTail hc) fun e f zs k hs => twin_endTail hz ih hc k hs
            split
            · rename_i hb
              exact TwinRes.andThen (ih (.vToIToV hb) hs0 k) (.endTail hc) fun e f zs k hs => twin_endTail hz ih hc k hs
            · exact ih (.err hp (by decide) rfl) hs0 k
    · mleaf

theorem twin_ccPoint (hm : z ∈ Z) : TwinRes Z (step call (.cruiseClimbPoint z.1) ⟨e, olds zs⟩) (step call (.cruiseClimbPoint z.2) ⟨f, news zs⟩) := by
  rw [step_ccPoint call _ (hz.fst z hm) e _ k.ne, step_ccPoint call _ (hz.snd z hm) f _ k.ne']
  have k' := k.act hz (.ccPoint hm)
  have tail : ∀ (e f : Ers F) (zs : List (Token × Token)), Twin Z e f → zs <:+ Z → TwinRes Z
      (match olds zs with
        | [] => call (.addErrorAndReSync z.1 28) ⟨e, []⟩
        | nt2 :: ts => andThen ((if nt2.base = .SPEED_ALTITUDE_ALTITUDE then call (.assignSpeedAltitudeAltitude nt2)
            else if nt2.base = .SPEED_ALTITUDE_PLUS then call (.assignSpeedAltitudePlus nt2)
            else call (.addErrorAndReSync nt2 29)) ⟨e, ts⟩) (endTail call))
      (match news zs with
        | [] => call (.addErrorAndReSync z.2 28) ⟨f, []⟩
        | nt2 :: ts => andThen ((if nt2.base = .SPEED_ALTITUDE_ALTITUDE then call (.assignSpeedAltitudeAltitude nt2)
            else if nt2.base = .SPEED_ALTITUDE_PLUS then call (.assignSpeedAltitudePlus nt2)
            else call (.addErrorAndReSync nt2 29)) ⟨f, ts⟩) (endTail call)) := by
    intro e f zs k hs
    cases zs with
    | nil => exact ih (zs := []) (.err hm (by decide) rfl) hs k
    | cons nz zs =>
      obtain ⟨hn, hs⟩ := suf_rest hs
      rw [olds_cons, news_cons]; dsimp only
      rw [← hz.base hn]
      refine TwinRes.andThen ?_ (.endTail hc) fun e f zs k hs => twin_endTail hz ih hc k hs
      split
      · mleaf
      split
      · mleaf
      · mleaf
  cases zs with
  | nil => exact ih (zs := []) (.err hm (by decide) rfl) hs k'
  | cons nz zs =>
    obtain ⟨hn, hs⟩ := suf_rest hs
    rw [olds_cons, news_cons]; dsimp only
    rw [← hz.base hn]
    split
    · refine TwinRes.andThen (ih (.err hn (by decide) rfl) hs k') (fun f us a s' h => ?_) tail
      cases us with
      | nil => exact (hc _).retains h
      | cons u us =>
        dsimp only at h
        refine Retains.andThen (f := f) (fun b s hb => ?_) (.endTail hc) h
        split at hb
        · exact (hc _).retains hb
        split at hb
        · exact (hc _).retains hb
        · exact (hc _).retains hb
    · exact tail _ _ _ k' hs

theorem twin_vToI {p s l : Token × Token} (hs3 : p :: s :: l :: zs <:+ Z) (hb : l.1.base = .SPEED_ALTITUDE) :
    TwinRes Z (step call .vToI ⟨e, olds (p :: s :: l :: zs)⟩) (step call .vToI ⟨f, news (p :: s :: l :: zs)⟩) := by
  have hp : p ∈ Z := hs3.mem (by simp)
  have hl : l ∈ Z := hs3.mem (by simp)
  simp only [olds_cons, news_cons]
  rw [step_vToI call _ _ _ (hz.fst p hp) e _ k.ne, step_vToI call _ _ _ (hz.snd p hp) f _ k.ne']
  exact ih (.level hl hb) hs (k.act hz (.vToI hp))

theorem twin_vToIToV {p s l : Token × Token} (hs3 : p :: s :: l :: zs <:+ Z) (hb : l.1.base = .SPEED_VFR) :
    TwinRes Z (step call .vToIToV ⟨e, olds (p :: s :: l :: zs)⟩) (step call .vToIToV ⟨f, news (p :: s :: l :: zs)⟩) := by
  have hp : p ∈ Z := hs3.mem (by simp)
  have hl : l ∈ Z := hs3.mem (by simp)
  simp only [olds_cons, news_cons]
  rw [step_vToIToV call _ _ _ e _ k.ne, step_vToIToV call _ _ _ f _ k.ne']
  exact ih (.vfr hl hb) hs (k.act hz (.vToIToV hp))

end

/-- All methods. -/
theorem twin_exec {Z : List (Token × Token)} (hz : Twins Z) (n : Nat) : TIH (F := F) Z (exec n) := by
  have hc := fun n => Grows.exec (σ := List Token) (F := F) n
  induction n with
  | zero => intro c d zs e f _ _ _; exact trivial
  | succ n ih =>
    intro c d zs e f h hs k
    show TwinRes Z (step (exec n) c _) (step (exec n) d _)
    cases h with
    | err h1 h3 h2 =>
      rw [step_err _ _ _ h2 e _ k.ne, step_err _ _ _ h2 f _ k.ne']
      exact ih .reSync hs (k.act hz (.err _ h1 h3 h2))
    | level h1 h2 => exact twin_level hz ih (hc n) k hs h1 h2
    | levels h1 h2 => exact twin_levels hz ih (hc n) k hs h1 h2
    | plus h1 h2 => exact twin_plus hz ih (hc n) k hs h1 h2
    | vfr h1 h2 => exact twin_vfr hz ih (hc n) k hs h1 h2
    | breakEnd h => exact twin_breakEnd hz ih (hc n) k hs h
    | breakEndError h => exact twin_breakEndError hz ih (hc n) k hs h
    | breakStart h => exact twin_breakStart hz ih (hc n) k hs h
    | text h => exact twin_text hz ih (hc n) k hs h
    | C h => exact twin_C hz ih (hc n) k hs h
    | ccPoint h => exact twin_ccPoint hz ih (hc n) k hs h
    | dct h => exact twin_dct hz ih (hc n) k hs h
    | slash h => exact twin_slash hz ih (hc n) k hs h
    | postAdep h => exact twin_postAdep hz ih (hc n) k hs h
    | postPoint h => exact twin_postPoint hz ih (hc n) k hs h
    | postSid => exact twin_postSid hz ih (hc n) k hs
    | point h => exact twin_point hz ih (hc n) k hs h
    | reSync => exact twin_reSync hz ih (hc n) k hs
    | route h => exact twin_route hz ih (hc n) k hs h
    | sid h => exact twin_sid hz ih (hc n) k hs h
    | sidStar h => exact twin_sidStar hz ih (hc n) k hs h
    | star h => exact twin_star hz ih (hc n) k hs h
    | stay h => exact twin_stay hz ih (hc n) k hs h
    | stayTime h1 h2 => exact twin_stayTime hz ih (hc n) k hs h1 h2
    | truncate => exact twin_truncate hz ih (hc n) k hs
    | vToI hb => exact twin_vToI hz ih (hc n) k ((suf_rest (suf_rest (suf_rest hs).2).2).2) hs hb
    | vToIToV hb => exact twin_vToIToV hz ih (hc n) k ((suf_rest (suf_rest (suf_rest hs).2).2).2) hs hb

end F15
