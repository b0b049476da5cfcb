import Verif.Lemmas.Kinds
/-!
# Tokens of the same kinds are read in the same way: the methods
-/

namespace F15
open Spec

set_option linter.unusedSectionVars false
set_option linter.unusedSimpArgs false
variable {F : Type} [PyFloat F]

/-- Calls of the same method with paired tokens. -/
inductive KinCall (Z : List (Token × Token)) : List (Token × Token) → Call → Call → Prop
  | err {zs z n} : z ∈ Z → (errorMessage n).isSome = true → KinCall Z zs (.addErrorAndReSync z.1 n) (.addErrorAndReSync z.2 n)
  | level {zs z} : z ∈ Z → z.1.base = .SPEED_ALTITUDE → KinCall Z zs (.assignSpeedAltitude z.1) (.assignSpeedAltitude z.2)
  | levels {zs z} : z ∈ Z → z.1.base = .SPEED_ALTITUDE_ALTITUDE →
      KinCall Z zs (.assignSpeedAltitudeAltitude z.1) (.assignSpeedAltitudeAltitude z.2)
  | plus {zs z} : z ∈ Z → z.1.base = .SPEED_ALTITUDE_PLUS → KinCall Z zs (.assignSpeedAltitudePlus z.1) (.assignSpeedAltitudePlus z.2)
  | vfr {zs z} : z ∈ Z → z.1.base = .SPEED_VFR → KinCall Z zs (.assignSpeedVfr z.1) (.assignSpeedVfr z.2)
  | breakEnd {zs z} : z ∈ Z → KinCall Z zs (.breakEnd z.1) (.breakEnd z.2)
  | breakEndError {zs z} : z ∈ Z → KinCall Z zs (.breakEndError z.1) (.breakEndError z.2)
  | breakStart {zs z} : z ∈ Z → KinCall Z zs (.breakStart z.1) (.breakStart z.2)
  | text {zs z} : z ∈ Z → KinCall Z zs (.breakTextSave z.1) (.breakTextSave z.2)
  | C {zs z} : z ∈ Z → KinCall Z zs (.cruiseClimbC z.1) (.cruiseClimbC z.2)
  | ccPoint {zs z} : z ∈ Z → KinCall Z zs (.cruiseClimbPoint z.1) (.cruiseClimbPoint z.2)
  | dct {zs z} : z ∈ Z → KinCall Z zs (.dct z.1) (.dct z.2)
  | slash {zs z} : z ∈ Z → KinCall Z zs (.forwardSlash z.1) (.forwardSlash z.2)
  | postAdep {zs z} : z ∈ Z → KinCall Z zs (.postAdep z.1) (.postAdep z.2)
  | postPoint {zs z} : z ∈ Z → KinCall Z zs (.postPoint z.1) (.postPoint z.2)
  | postSid {zs} : KinCall Z zs .postSid .postSid
  | point {zs z} : z ∈ Z → KinCall Z zs (.point z.1) (.point z.2)
  | reSync {zs} : KinCall Z zs .reSync .reSync
  | route {zs z} : z ∈ Z → KinCall Z zs (.route z.1) (.route z.2)
  | sid {zs z} : z ∈ Z → KinCall Z zs (.sid z.1) (.sid z.2)
  | sidStar {zs z} : z ∈ Z → KinCall Z zs (.sidStar z.1) (.sidStar z.2)
  | star {zs z} : z ∈ Z → KinCall Z zs (.star z.1) (.star z.2)
  | stay {zs z} : z ∈ Z → KinCall Z zs (.stay z.1) (.stay z.2)
  | stayTime {zs z} : z ∈ Z → z.1.base = .STAY_TIME → KinCall Z zs (.stayTime z.1) (.stayTime z.2)
  | truncate {zs} : KinCall Z zs .truncate .truncate
  | vToI {p s l zs} : l.1.base = .SPEED_ALTITUDE → KinCall Z (p :: s :: l :: zs) .vToI .vToI
  | vToIToV {p s l zs} : l.1.base = .SPEED_VFR → KinCall Z (p :: s :: l :: zs) .vToIToV .vToIToV

/-- Results of the same shape. -/
def KinRes (Z : List (Token × Token)) (r r' : Res F) : Prop :=
  match r, r' with
  | .ok (_, s), .ok (_, s') => Kin Z s.ers s'.ers ∧ ∃ zs, zs <:+ Z ∧ s.toks = lefts zs ∧ s'.toks = rights zs
  | .error x, .error y => x = y
  | _, _ => False

def KIH (Z : List (Token × Token)) (call : Call → ML F Unit) : Prop :=
  ∀ {c d zs e f}, KinCall Z zs c d → zs <:+ Z → Kin Z e f → KinRes Z (call c ⟨e, lefts zs⟩) (call d ⟨f, rights zs⟩)

theorem KinRes.ret {Z zs : List (Token × Token)} {e f : Ers F} (k : Kin Z e f) (hs : zs <:+ Z) :
    KinRes Z (done e (lefts zs)) (done f (rights zs)) := ⟨k, zs, hs, rfl, rfl⟩

theorem KinRes.nil {Z : List (Token × Token)} {e f : Ers F} (k : Kin Z e f) : KinRes Z (done e []) (done f []) :=
  ⟨k, [], List.nil_suffix, rfl, rfl⟩

theorem KinRes.andThen {Z : List (Token × Token)} {r r' : Res F} {k k' : Ers F → List Token → Res F} (h : KinRes Z r r')
    (hk : ∀ e f zs, Kin Z e f → zs <:+ Z → KinRes Z (k e (lefts zs)) (k' f (rights zs))) : KinRes Z (andThen r k) (andThen r' k') := by
  cases r with
  | error x => cases r' with
    | error y => exact h
    | ok q => exact h.elim
  | ok p => cases r' with
    | error y => exact h.elim
    | ok q =>
      obtain ⟨⟨⟩, e, ts⟩ := p
      obtain ⟨⟨⟩, f, us⟩ := q
      obtain ⟨h1, zs, h2, h3, h4⟩ := h
      dsimp only at h3 h4
      subst h3 h4
      exact hk e f zs h1 h2

theorem lefts_cons (z : Token × Token) (zs : List (Token × Token)) : lefts (z :: zs) = z.1 :: lefts zs := rfl
theorem rights_cons (z : Token × Token) (zs : List (Token × Token)) : rights (z :: zs) = z.2 :: rights zs := rfl

theorem KIH.apply {Z : List (Token × Token)} {call : Call → ML F Unit} (ih : KIH Z call) {c d zs e f} (h : KinCall Z zs c d) (hs : zs <:+ Z)
    (k : Kin Z e f) : KinRes Z (call c ⟨e, lefts zs⟩) (call d ⟨f, rights zs⟩) := ih h hs k

section
variable {Z : List (Token × Token)} (hz : Pairs Z) {call : Call → ML F Unit} (ih : KIH Z call)
variable {e f : Ers F} (k : Kin Z e f) {zs : List (Token × Token)} (hs : zs <:+ Z) {z : Token × Token} (hm : z ∈ Z)
include hz ih k hs

macro "leaf" : tactic => `(tactic| first
  | exact KinRes.nil (by assumption)
  | (refine KIH.apply (by assumption) ?_ (by assumption) (by assumption); first
    | exact .err (by assumption) rfl
    | exact .level (by assumption) (by assumption)
    | exact .levels (by assumption) (by assumption)
    | exact .plus (by assumption) (by assumption)
    | exact .vfr (by assumption) (by assumption)
    | exact .breakEnd (by assumption)
    | exact .breakEndError (by assumption)
    | exact .breakStart (by assumption)
    | exact .text (by assumption)
    | exact .C (by assumption)
    | exact .ccPoint (by assumption)
    | exact .dct (by assumption)
    | exact .slash (by assumption)
    | exact .postAdep (by assumption)
    | exact .postPoint (by assumption)
    | exact .postSid
    | exact .point (by assumption)
    | exact .reSync
    | exact .route (by assumption)
    | exact .sid (by assumption)
    | exact .sidStar (by assumption)
    | exact .star (by assumption)
    | exact .stay (by assumption)
    | exact .stayTime (by assumption) (by assumption)
    | exact .truncate))

omit hz ih k hs in
theorem suf_cons {Z zs : List (Token × Token)} {z : Token × Token} (h : z :: zs <:+ Z) : z ∈ Z ∧ zs <:+ Z :=
  ⟨h.mem (by simp), (List.suffix_cons z zs).trans h⟩

theorem kin_point (hm : z ∈ Z) : KinRes Z (step call (.point z.1) ⟨e, lefts zs⟩) (step call (.point z.2) ⟨f, rights zs⟩) := by
  rw [step_point call _ (hz.fst z hm) e _ k.ne, step_point call _ (hz.snd z hm) f _ k.ne']
  have k' := k.act hz (.point hm)
  cases zs with
  | nil => leaf
  | cons nz zs =>
    obtain ⟨hn, hs⟩ := suf_cons hs
    exact ih (.postPoint hn) hs k'

theorem kin_route (hm : z ∈ Z) : KinRes Z (step call (.route z.1) ⟨e, lefts zs⟩) (step call (.route z.2) ⟨f, rights zs⟩) := by
  rw [step_route call _ e _ k.ne, step_route call _ f _ k.ne']
  have k := k.act hz (.route hm)
  cases zs with
  | nil => leaf
  | cons nz zs =>
    obtain ⟨hn, hs⟩ := suf_cons hs
    have hb' := (hz.alike nz hn).1
    have hs' := (hz.alike nz hn).2
    rw [lefts_cons, rights_cons]; dsimp only
    rw [← hb', ← hs']
    cases hb : nz.1.base
    case POINT =>
      dsimp only
      split
      · exact KinRes.andThen (ih (.err hn rfl) hs k) fun e f zs k hs => by leaf
      · leaf
    all_goals dsimp only <;> leaf

theorem kin_dct (hm : z ∈ Z) : KinRes Z (step call (.dct z.1) ⟨e, lefts zs⟩) (step call (.dct z.2) ⟨f, rights zs⟩) := by
  rw [step_dct call _ e _ k.ne, step_dct call _ f _ k.ne']
  have k := k.act hz (.plain hm)
  cases zs with
  | nil => leaf
  | cons nz zs =>
    obtain ⟨hn, hs⟩ := suf_cons hs
    have hb' := (hz.alike nz hn).1
    rw [lefts_cons, rights_cons]; dsimp only
    rw [← hb']
    cases hb : nz.1.base <;> dsimp only <;> leaf

theorem kin_stayTime (hm : z ∈ Z) (h1 : z.1.base = .STAY_TIME) : KinRes Z (step call (.stayTime z.1) ⟨e, lefts zs⟩) (step call (.stayTime z.2) ⟨f, rights zs⟩) := by
  have h2 : z.2.base = .STAY_TIME := by rw [← (hz.alike z hm).1, h1]
  rw [step_stayTime call _ (stay_facts (hz.fst z hm) h1) e _ k.ne, step_stayTime call _ (stay_facts (hz.snd z hm) h2) f _ k.ne']
  have k := k.act hz (.stay hm h1)
  cases zs with
  | nil => leaf
  | cons nz zs =>
    obtain ⟨hn, hs⟩ := suf_cons hs
    have hb' := (hz.alike nz hn).1
    rw [lefts_cons, rights_cons]; dsimp only
    rw [← hb']
    cases hb : nz.1.base <;> dsimp only <;> leaf

omit hs in
theorem kin_len : e.recs.length = 1 ↔ f.recs.length = 1 := by rw [k.recs.len]

theorem kin_sid (hm : z ∈ Z) : KinRes Z (step call (.sid z.1) ⟨e, lefts zs⟩) (step call (.sid z.2) ⟨f, rights zs⟩) := by
  rw [step_sid call _ e _ k.ne, step_sid call _ f _ k.ne', k.recs.len]
  have k1 := k.act hz (.sid hm)
  have k2 := k.act hz (.plain hm)
  split
  · exact ih .postSid hs k1
  · exact ih (.err hm rfl) hs k2

theorem kin_sidStar (hm : z ∈ Z) : KinRes Z (step call (.sidStar z.1) ⟨e, lefts zs⟩) (step call (.sidStar z.2) ⟨f, rights zs⟩) := by
  rw [step_sidStar call _ e _ k.ne, step_sidStar call _ f _ k.ne', k.recs.len]
  have k1 := k.act hz (.sid hm)
  have k2 := k.act hz (.plain hm)
  have k3 := k.act hz (.star hm)
  split
  · exact ih .postSid hs k1
  · cases zs with
    | nil => exact .nil k3
    | cons nz zs => exact ih (.err (suf_cons hs).1 rfl) hs k2

theorem kin_star (hm : z ∈ Z) : KinRes Z (step call (.star z.1) ⟨e, lefts zs⟩) (step call (.star z.2) ⟨f, rights zs⟩) := by
  rw [step_star call _ e _ k.ne, step_star call _ f _ k.ne']
  have k2 := k.act hz (.plain hm)
  have k3 := k.act hz (.star hm)
  cases zs with
  | nil => exact .nil k3
  | cons nz zs => exact ih (.err (suf_cons hs).1 rfl) hs k2

theorem kin_stay (hm : z ∈ Z) : KinRes Z (step call (.stay z.1) ⟨e, lefts zs⟩) (step call (.stay z.2) ⟨f, rights zs⟩) := by
  rw [step_stay, step_stay]
  cases zs with
  | nil => exact ih (zs := []) (.err hm rfl) hs k
  | cons nz zs =>
    obtain ⟨hn, hs⟩ := suf_cons hs
    rw [lefts_cons, rights_cons]; dsimp only
    rw [← (hz.alike nz hn).1]
    split
    · leaf
    · cases zs with
      | nil => exact ih (zs := []) (.err hn rfl) hs k
      | cons nz2 zs =>
        obtain ⟨hn2, hs⟩ := suf_cons hs
        rw [lefts_cons, rights_cons]; dsimp only
        rw [← (hz.alike nz2 hn2).1]
        split
        · leaf
        · rename_i h
          exact ih (.stayTime hn2 (Decidable.not_not.1 h)) hs k

theorem kin_breakStart (hm : z ∈ Z) : KinRes Z (step call (.breakStart z.1) ⟨e, lefts zs⟩) (step call (.breakStart z.2) ⟨f, rights zs⟩) := by
  rw [step_breakStart call _ e _ k.ne, step_breakStart call _ f _ k.ne']
  have k := k.act hz (.brk hm)
  cases zs with
  | nil => leaf
  | cons nz zs =>
    obtain ⟨hn, hs⟩ := suf_cons hs
    rw [lefts_cons, rights_cons]; dsimp only
    rw [← (hz.alike nz hn).1]
    split <;> leaf

theorem kin_textTail : KinRes Z (textTail call e (lefts zs)) (textTail call f (rights zs)) := by
  cases zs with
  | nil => exact .nil k
  | cons nz zs => exact ih (.text (suf_cons hs).1) (suf_cons hs).2 k

theorem kin_textBody (hm : z ∈ Z) (he : e.recs ≠ []) (hf : f.recs ≠ []) :
    KinRes Z (textBody call z.1 e (lefts zs) he) (textBody call z.2 f (rights zs) hf) := by
  have k' := k.act hz (.text hm)
  unfold textBody
  rw [k.head.2.2.1, (hz.alike z hm).2]
  split
  · exact KinRes.andThen (ih (.breakEnd hm) hs k') fun e f zs k hs => kin_textTail hz ih k hs
  · exact kin_textTail hz ih k' hs

theorem kin_text (hm : z ∈ Z) : KinRes Z (step call (.breakTextSave z.1) ⟨e, lefts zs⟩) (step call (.breakTextSave z.2) ⟨f, rights zs⟩) := by
  by_cases hb : z.1.base = .TOO_LONG
  · have hb' : z.2.base = .TOO_LONG := by rw [← (hz.alike z hm).1, hb]
    rw [step_text_long call _ e _ hb, step_text_long call _ f _ hb']
    refine KinRes.andThen (ih (.err hm rfl) hs k) fun e f zs k hs => ?_
    rw [dif_pos k.ne, dif_pos k.ne']
    exact kin_textBody hz ih k hs hm k.ne k.ne'
  · have hb' : z.2.base ≠ .TOO_LONG := by rw [← (hz.alike z hm).1]; exact hb
    rw [step_text call _ e _ k.ne hb, step_text call _ f _ k.ne' hb']
    exact kin_textBody hz ih k hs hm k.ne k.ne'

theorem kin_C (hm : z ∈ Z) : KinRes Z (step call (.cruiseClimbC z.1) ⟨e, lefts zs⟩) (step call (.cruiseClimbC z.2) ⟨f, rights zs⟩) := by
  rw [step_C call _ e _ k.ne, step_C call _ f _ k.ne']
  have k' := k.act hz (.plain hm)
  cases zs with
  | nil => exact .nil k'
  | cons nz zs =>
    obtain ⟨hn, hs⟩ := suf_cons hs
    rw [lefts_cons, rights_cons]; dsimp only
    rw [← (hz.alike nz hn).1]
    cases hb : nz.1.base
    case SLASH =>
      dsimp only
      cases zs with
      | nil => exact ih (zs := []) (.err hn rfl) hs k'
      | cons nz2 zs => exact ih (.ccPoint (suf_cons hs).1) (suf_cons hs).2 k
    case UNKNOWN | SPEED_VFR | SPEED_ALTITUDE | BREAK_END | SPEED_ALTITUDE_ALTITUDE | SPEED_ALTITUDE_PLUS | TOO_LONG |
        STAY_TIME => dsimp only; clear k'; leaf
    all_goals dsimp only; clear k; leaf

theorem kin_truncate : KinRes Z (step call .truncate ⟨e, lefts zs⟩) (step call .truncate ⟨f, rights zs⟩) := by
  rw [step_truncate, step_truncate]
  cases zs with
  | nil => exact .nil k
  | cons nz zs => exact ih (.err (suf_cons hs).1 rfl) (suf_cons hs).2 k

theorem kin_postSid : KinRes Z (step call .postSid ⟨e, lefts zs⟩) (step call .postSid ⟨f, rights zs⟩) := by
  rw [step_postSid, step_postSid]
  cases zs with
  | nil => exact .nil k
  | cons nz zs =>
    obtain ⟨hn, hs⟩ := suf_cons hs
    rw [lefts_cons, rights_cons]; dsimp only
    rw [← (hz.alike nz hn).1]
    cases hb : nz.1.base <;> dsimp only <;> leaf

theorem kin_slash (hm : z ∈ Z) : KinRes Z (step call (.forwardSlash z.1) ⟨e, lefts zs⟩) (step call (.forwardSlash z.2) ⟨f, rights zs⟩) := by
  rw [step_slash, step_slash]
  cases zs with
  | nil => exact ih (zs := []) (.err hm rfl) hs k
  | cons nz zs =>
    obtain ⟨hn, hs⟩ := suf_cons hs
    rw [lefts_cons, rights_cons]; dsimp only
    rw [← (hz.alike nz hn).1]
    cases hb : nz.1.base <;> dsimp only <;> leaf

theorem kin_postPoint (hm : z ∈ Z) : KinRes Z (step call (.postPoint z.1) ⟨e, lefts zs⟩) (step call (.postPoint z.2) ⟨f, rights zs⟩) := by
  rw [step_postPoint call _ e _ k.ne, step_postPoint call _ f _ k.ne', ← (hz.alike z hm).1, k.head.2.1]
  cases hb : z.1.base
  case ROUTE => dsimp only; split <;> leaf
  all_goals dsimp only; leaf

theorem kin_postAdep (hm : z ∈ Z) : KinRes Z (step call (.postAdep z.1) ⟨e, lefts zs⟩) (step call (.postAdep z.2) ⟨f, rights zs⟩) := by
  show KinRes Z (postAdep call z.1 ⟨e, lefts zs⟩) (postAdep call z.2 ⟨f, rights zs⟩)
  unfold postAdep
  rw [← (hz.alike z hm).1]
  cases hb : z.1.base <;> dsimp only <;> leaf

theorem kin_breakEndError (hm : z ∈ Z) : KinRes Z (step call (.breakEndError z.1) ⟨e, lefts zs⟩) (step call (.breakEndError z.2) ⟨f, rights zs⟩) := by
  show KinRes Z (breakEndError call z.1 ⟨e, lefts zs⟩) (breakEndError call z.2 ⟨f, rights zs⟩)
  unfold breakEndError
  rw [← (hz.alike z hm).2]
  split
  · leaf
  split
  · leaf
  split
  · leaf
  · exact .ret k hs

theorem kin_reSync : KinRes Z (step call .reSync ⟨e, lefts zs⟩) (step call .reSync ⟨f, rights zs⟩) := by
  rw [step_reSync, step_reSync]
  cases zs with
  | nil => exact .nil k
  | cons nz zs =>
    obtain ⟨hn, hs⟩ := suf_cons hs
    rw [lefts_cons, rights_cons]; dsimp only
    rw [← (hz.alike nz hn).1]
    cases hb : nz.1.base
    case SLASH =>
      dsimp only
      cases zs with
      | nil => exact ih (zs := []) (.err hn rfl) hs k
      | cons nz2 zs =>
        obtain ⟨hn2, hs⟩ := suf_cons hs
        rw [lefts_cons, rights_cons]; dsimp only
        rw [← (hz.alike nz2 hn2).1]
        cases hb2 : nz2.1.base <;> dsimp only <;> leaf
    all_goals dsimp only; leaf

theorem kin_level (hm : z ∈ Z) (hb : z.1.base = .SPEED_ALTITUDE) :
    KinRes Z (step call (.assignSpeedAltitude z.1) ⟨e, lefts zs⟩) (step call (.assignSpeedAltitude z.2) ⟨f, rights zs⟩) := by
  have hb' : z.2.base = .SPEED_ALTITUDE := by rw [← (hz.alike z hm).1, hb]
  rw [step_level call _ (hz.fst z hm) hb e _ k.ne, step_level call _ (hz.snd z hm) hb' f _ k.ne', k.recs.len]
  have k := k.act hz (.level hm hb)
  cases zs with
  | nil => leaf
  | cons nz zs =>
    obtain ⟨hn, hs⟩ := suf_cons hs
    rw [lefts_cons, rights_cons]; dsimp only
    split <;> leaf

theorem kin_levelsK {a b : Act} (h : KinAct Z a b) : KinRes Z (levelsK call a e (lefts zs)) (levelsK call b f (rights zs)) := by
  have k := k.act hz h
  cases zs with
  | nil => exact .nil k
  | cons nz zs => exact ih (.postPoint (suf_cons hs).1) (suf_cons hs).2 k

theorem kin_levels (hm : z ∈ Z) (hb : z.1.base = .SPEED_ALTITUDE_ALTITUDE) :
    KinRes Z (step call (.assignSpeedAltitudeAltitude z.1) ⟨e, lefts zs⟩) (step call (.assignSpeedAltitudeAltitude z.2) ⟨f, rights zs⟩) := by
  have hb' : z.2.base = .SPEED_ALTITUDE_ALTITUDE := by rw [← (hz.alike z hm).1, hb]
  by_cases hbad : z.1.sub ∈ ccBad
  · have hbad' : z.2.sub ∈ ccBad := by rw [← (hz.alike z hm).2]; exact hbad
    rw [step_levels_bad call _ (hz.fst z hm) hbad e _ k.ne, step_levels_bad call _ (hz.snd z hm) hbad' f _ k.ne']
    exact rfl
  · have hbad' : z.2.sub ∉ ccBad := by rw [← (hz.alike z hm).2]; exact hbad
    rw [step_levels call _ (hz.fst z hm) hb hbad e _ k.ne, step_levels call _ (hz.snd z hm) hb' hbad' f _ k.ne']
    exact kin_levelsK hz ih k hs (.levels hm hb)

theorem kin_plus (hm : z ∈ Z) (hb : z.1.base = .SPEED_ALTITUDE_PLUS) :
    KinRes Z (step call (.assignSpeedAltitudePlus z.1) ⟨e, lefts zs⟩) (step call (.assignSpeedAltitudePlus z.2) ⟨f, rights zs⟩) := by
  have hb' : z.2.base = .SPEED_ALTITUDE_PLUS := by rw [← (hz.alike z hm).1, hb]
  rw [step_plus call _ (hz.fst z hm) hb e _ k.ne, step_plus call _ (hz.snd z hm) hb' f _ k.ne']
  exact kin_levelsK hz ih k hs (.plus hm hb)

theorem kin_vfr (hm : z ∈ Z) (hb : z.1.base = .SPEED_VFR) :
    KinRes Z (step call (.assignSpeedVfr z.1) ⟨e, lefts zs⟩) (step call (.assignSpeedVfr z.2) ⟨f, rights zs⟩) := by
  have hb' : z.2.base = .SPEED_VFR := by rw [← (hz.alike z hm).1, hb]
  rw [step_vfr call _ (hz.fst z hm) hb e _ k.ne, step_vfr call _ (hz.snd z hm) hb' f _ k.ne']
  have k := k.act hz (.vfr hm hb)
  cases zs with
  | nil => leaf
  | cons nz zs => exact ih (.text (suf_cons hs).1) (suf_cons hs).2 k

theorem kin_endTail : KinRes Z (endTail call e (lefts zs)) (endTail call f (rights zs)) := by
  cases zs with
  | nil => exact .nil k
  | cons nz zs => exact ih (.point (suf_cons hs).1) (suf_cons hs).2 k

theorem kin_breakEnd (hm : z ∈ Z) : KinRes Z (step call (.breakEnd z.1) ⟨e, lefts zs⟩) (step call (.breakEnd z.2) ⟨f, rights zs⟩) := by
  rw [step_breakEnd, step_breakEnd]
  have hs0 := hs
  cases zs with
  | nil => exact .nil k
  | cons p zs =>
    obtain ⟨hp, hs⟩ := suf_cons hs
    rw [lefts_cons, rights_cons]; dsimp only
    rw [← (hz.alike p hp).1, ← (hz.alike z hm).2]
    split
    · exact .ret k hs0
    split
    · cases zs with
      | nil => exact ih (.err hp rfl) hs0 k
      | cons sl zs =>
        obtain ⟨hsl, hs⟩ := suf_cons hs
        rw [lefts_cons, rights_cons]; dsimp only
        rw [← (hz.alike sl hsl).1]
        split
        · exact .ret k hs0
        · cases zs with
          | nil => exact ih (.err hp rfl) hs0 k
          | cons sp zs =>
            obtain ⟨hsp, hs⟩ := suf_cons hs
            rw [lefts_cons, rights_cons]; dsimp only
            rw [← (hz.alike sp hsp).1]
            split
            · rename_i hb
              exact KinRes.andThen (ih (.vToI hb) hs0 k) fun e f zs k hs => kin_endTail hz ih k hs
            split
            · rename_i hb
              exact KinRes.andThen (ih (.vToIToV hb) hs0 k) fun e f zs k hs => kin_endTail hz ih k hs
            · exact ih (.err hp rfl) hs0 k
    · leaf

theorem kin_ccPoint (hm : z ∈ Z) : KinRes Z (step call (.cruiseClimbPoint z.1) ⟨e, lefts zs⟩) (step call (.cruiseClimbPoint z.2) ⟨f, rights zs⟩) := by
  rw [step_ccPoint call _ (hz.fst z hm) e _ k.ne, step_ccPoint call _ (hz.snd z hm) f _ k.ne']
  have k' := k.act hz (.ccPoint hm)
  have tail : ∀ (e f : Ers F) (zs : List (Token × Token)), Kin Z e f → zs <:+ Z → KinRes Z
      (match lefts zs with
        | [] => call (.addErrorAndReSync z.1 28) ⟨e, []⟩
        | nt2 :: ts => andThen ((if nt2.base = .SPEED_ALTITUDE_ALTITUDE then call (.assignSpeedAltitudeAltitude nt2)
            else if nt2.base = .SPEED_ALTITUDE_PLUS then call (.assignSpeedAltitudePlus nt2)
            else call (.addErrorAndReSync nt2 29)) ⟨e, ts⟩) (endTail call))
      (match rights zs with
        | [] => call (.addErrorAndReSync z.2 28) ⟨f, []⟩
        | nt2 :: ts => andThen ((if nt2.base = .SPEED_ALTITUDE_ALTITUDE then call (.assignSpeedAltitudeAltitude nt2)
            else if nt2.base = .SPEED_ALTITUDE_PLUS then call (.assignSpeedAltitudePlus nt2)
            else call (.addErrorAndReSync nt2 29)) ⟨f, ts⟩) (endTail call)) := by
    intro e f zs k hs
    cases zs with
    | nil => exact ih (zs := []) (.err hm rfl) hs k
    | cons nz zs =>
      obtain ⟨hn, hs⟩ := suf_cons hs
      rw [lefts_cons, rights_cons]; dsimp only
      rw [← (hz.alike nz hn).1]
      refine KinRes.andThen ?_ fun e f zs k hs => kin_endTail hz ih k hs
      split
      · leaf
      split
      · leaf
      · leaf
  cases zs with
  | nil => exact ih (zs := []) (.err hm rfl) hs k'
  | cons nz zs =>
    obtain ⟨hn, hs⟩ := suf_cons hs
    rw [lefts_cons, rights_cons]; dsimp only
    rw [← (hz.alike nz hn).1]
    split
    · exact KinRes.andThen (ih (.err hn rfl) hs k') tail
    · exact tail _ _ _ k' hs

theorem kin_vToI {p s l : Token × Token} (hs3 : p :: s :: l :: zs <:+ Z) (hb : l.1.base = .SPEED_ALTITUDE) :
    KinRes Z (step call .vToI ⟨e, lefts (p :: s :: l :: zs)⟩) (step call .vToI ⟨f, rights (p :: s :: l :: zs)⟩) := by
  have hp : p ∈ Z := hs3.mem (by simp)
  have hl : l ∈ Z := hs3.mem (by simp)
  simp only [lefts_cons, rights_cons]
  rw [step_vToI call _ _ _ (hz.fst p hp) e _ k.ne, step_vToI call _ _ _ (hz.snd p hp) f _ k.ne']
  exact ih (.level hl hb) hs (k.act hz (.vToI hp))

theorem kin_vToIToV {p s l : Token × Token} (hs3 : p :: s :: l :: zs <:+ Z) (hb : l.1.base = .SPEED_VFR) :
    KinRes Z (step call .vToIToV ⟨e, lefts (p :: s :: l :: zs)⟩) (step call .vToIToV ⟨f, rights (p :: s :: l :: zs)⟩) := by
  have hp : p ∈ Z := hs3.mem (by simp)
  have hl : l ∈ Z := hs3.mem (by simp)
  simp only [lefts_cons, rights_cons]
  rw [step_vToIToV call _ _ _ e _ k.ne, step_vToIToV call _ _ _ f _ k.ne']
  exact ih (.vfr hl hb) hs (k.act hz (.vToIToV hp))

end

/-- All methods. -/
theorem kin_exec {Z : List (Token × Token)} (hz : Pairs Z) (n : Nat) : KIH (F := F) Z (exec n) := by
  induction n with
  | zero => intro c d zs e f _ _ _; exact rfl
  | succ n ih =>
    intro c d zs e f h hs k
    show KinRes Z (step (exec n) c _) (step (exec n) d _)
    cases h with
    | err h1 h2 =>
      rw [step_err _ _ _ h2 e _ k.ne, step_err _ _ _ h2 f _ k.ne']
      exact ih .reSync hs (k.act hz (.err _ h1 h2))
    | level h1 h2 => exact kin_level hz ih k hs h1 h2
    | levels h1 h2 => exact kin_levels hz ih k hs h1 h2
    | plus h1 h2 => exact kin_plus hz ih k hs h1 h2
    | vfr h1 h2 => exact kin_vfr hz ih k hs h1 h2
    | breakEnd h => exact kin_breakEnd hz ih k hs h
    | breakEndError h => exact kin_breakEndError hz ih k hs h
    | breakStart h => exact kin_breakStart hz ih k hs h
    | text h => exact kin_text hz ih k hs h
    | C h => exact kin_C hz ih k hs h
    | ccPoint h => exact kin_ccPoint hz ih k hs h
    | dct h => exact kin_dct hz ih k hs h
    | slash h => exact kin_slash hz ih k hs h
    | postAdep h => exact kin_postAdep hz ih k hs h
    | postPoint h => exact kin_postPoint hz ih k hs h
    | postSid => exact kin_postSid hz ih k hs
    | point h => exact kin_point hz ih k hs h
    | reSync => exact kin_reSync hz ih k hs
    | route h => exact kin_route hz ih k hs h
    | sid h => exact kin_sid hz ih k hs h
    | sidStar h => exact kin_sidStar hz ih k hs h
    | star h => exact kin_star hz ih k hs h
    | stay h => exact kin_stay hz ih k hs h
    | stayTime h1 h2 => exact kin_stayTime hz ih k hs h1 h2
    | truncate => exact kin_truncate hz ih k hs
    | vToI hb => exact kin_vToI hz ih k ((suf_cons (suf_cons (suf_cons hs).2).2).2) hs hb
    | vToIToV hb => exact kin_vToIToV hz ih k ((suf_cons (suf_cons (suf_cons hs).2).2).2) hs hb

end F15
