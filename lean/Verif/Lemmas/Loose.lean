import Verif.Lemmas.Noise4
import Verif.Lemmas.Reports
/-!
# Stray words in a field 15 with wrong numbers
-/

namespace F15
open Spec

set_option linter.unusedSectionVars false
variable {F : Type} [PyFloat F]

theorem kinds_runTo {q : Phase} {ts : List Token} {as : List Act} {z : Option Phase} {k : Prop} (h : RunToG k q ts as z) :
    ∀ U, kindsOf ts = kindsOf U → ∃ bs, RunToG False q U bs z := by
  induction h with
  | here q => intro U hu; rw [kinds_nil hu]; exact ⟨_, .here q⟩
  | truncate hq hb =>
    intro U hu
    obtain ⟨t', U, rfl, b1, s1, hu⟩ := kinds_cons hu
    rw [kinds_nil hu]
    exact ⟨_, .truncate (kinds_allows b1 s1 hq) (by rw [b1, hb])⟩
  | star hq hb =>
    intro U hu
    obtain ⟨t', U, rfl, b1, s1, hu⟩ := kinds_cons hu
    rw [kinds_nil hu]
    exact ⟨_, .star (kinds_allows b1 s1 hq) (by rw [b1]; exact hb)⟩
  | sid hb _ ih =>
    intro U hu
    obtain ⟨t', U, rfl, b1, s1, hu⟩ := kinds_cons hu
    obtain ⟨bs, hr⟩ := ih U hu
    exact ⟨_, .sid (by rw [b1]; exact hb) hr⟩
  | dct hq hb _ ih =>
    intro U hu
    obtain ⟨t', U, rfl, b1, s1, hu⟩ := kinds_cons hu
    obtain ⟨bs, hr⟩ := ih U hu
    exact ⟨_, .dct (kinds_allows b1 s1 hq) (by rw [b1]; exact hb) hr⟩
  | route hq hb _ ih =>
    intro U hu
    obtain ⟨t', U, rfl, b1, s1, hu⟩ := kinds_cons hu
    obtain ⟨bs, hr⟩ := ih U hu
    exact ⟨_, .route (kinds_allows b1 s1 hq) (by rw [b1]; exact hb) hr⟩
  | point hq hb _ _ ih =>
    intro U hu
    obtain ⟨t', U, rfl, b1, s1, hu⟩ := kinds_cons hu
    obtain ⟨bs, hr⟩ := ih U hu
    rw [← kinds_fixed s1] at hr
    exact ⟨_, .point (kinds_allows b1 s1 hq) (by rw [b1]; exact hb) (fun h => h.elim) hr⟩
  | climb hq hb _ ih =>
    intro U hu
    obtain ⟨t', U, rfl, b1, s1, hu⟩ := kinds_cons hu
    obtain ⟨bs, hr⟩ := ih U hu
    exact ⟨_, .climb (kinds_allows b1 s1 hq) (by rw [b1]; exact hb) hr⟩
  | cruise hq hb hs _ hs' hl _ ih =>
    intro U hu
    obtain ⟨t', U, rfl, b1, s1, hu⟩ := kinds_cons hu
    obtain ⟨a1, U, rfl, b2, s2, hu⟩ := kinds_cons hu
    obtain ⟨a2, U, rfl, b3, s3, hu⟩ := kinds_cons hu
    obtain ⟨a3, U, rfl, b4, s4, hu⟩ := kinds_cons hu
    obtain ⟨a4, U, rfl, b5, s5, hu⟩ := kinds_cons hu
    obtain ⟨bs, hr⟩ := ih U hu
    rw [← kinds_fixed s3] at hr
    have : ∃ b, ClimbActG False a4 b := by
      rcases hl with ⟨h1, h2, _, _⟩ | ⟨h1, _, _⟩
      · exact ⟨_, .inl ⟨by rw [b5]; exact h1, by rw [s5]; exact h2, rfl, fun h => h.elim⟩⟩
      · exact ⟨_, .inr ⟨by rw [b5]; exact h1, rfl, fun h => h.elim⟩⟩
    obtain ⟨b, hb'⟩ := this
    exact ⟨_, .cruise (kinds_allows b1 s1 hq) (by rw [b1]; exact hb) (by rw [b2]; exact hs) (fun h => h.elim) (by rw [b4]; exact hs') hb' hr⟩
  | stay hq hb hs hm _ ih =>
    intro U hu
    obtain ⟨t', U, rfl, b1, s1, hu⟩ := kinds_cons hu
    obtain ⟨a1, U, rfl, b2, s2, hu⟩ := kinds_cons hu
    obtain ⟨a2, U, rfl, b3, s3, hu⟩ := kinds_cons hu
    obtain ⟨bs, hr⟩ := ih U hu
    exact ⟨_, .stay (kinds_allows b1 s1 hq) (by rw [b1]; exact hb) (by rw [b2]; exact hs) (by rw [b3]; exact hm) hr⟩
  | break_ hq hb _ ih =>
    intro U hu
    obtain ⟨t', U, rfl, b1, s1, hu⟩ := kinds_cons hu
    obtain ⟨bs, hr⟩ := ih U hu
    rw [← s1] at hr
    exact ⟨_, .break_ (kinds_allows b1 s1 hq) (by rw [b1]; exact hb) hr⟩
  | level hs hb _ _ ih =>
    intro U hu
    obtain ⟨t', U, rfl, b1, s1, hu⟩ := kinds_cons hu
    obtain ⟨a1, U, rfl, b2, s2, hu⟩ := kinds_cons hu
    obtain ⟨bs, hr⟩ := ih U hu
    exact ⟨_, .level (by rw [b1]; exact hs) (by rw [b2]; exact hb) (fun h => h.elim) hr⟩
  | vfr hs hb _ ih =>
    intro U hu
    obtain ⟨t', U, rfl, b1, s1, hu⟩ := kinds_cons hu
    obtain ⟨a1, U, rfl, b2, s2, hu⟩ := kinds_cons hu
    obtain ⟨bs, hr⟩ := ih U hu
    exact ⟨_, .vfr (by rw [b1]; exact hs) (by rw [b2]; exact hb) hr⟩
  | word hb hc _ ih =>
    intro U hu
    obtain ⟨t', U, rfl, b1, s1, hu⟩ := kinds_cons hu
    obtain ⟨bs, hr⟩ := ih U hu
    refine ⟨_, .word (by rw [b1]; exact hb) (fun h => kinds_readOn s1 hu (hc ?_)) hr⟩
    unfold closes at h ⊢; rw [s1] at h; exact h
  | resume hc hi hb hp _ _ ih =>
    intro U hu
    obtain ⟨t', U, rfl, b1, s1, hu⟩ := kinds_cons hu
    obtain ⟨a1, U, rfl, b2, s2, hu⟩ := kinds_cons hu
    obtain ⟨bs, hr⟩ := ih U hu
    rw [← kinds_fixed s2] at hr
    refine ⟨_, .resume ?_ (by rw [s1]; exact hi) (by rw [b1]; exact hb) (by rw [b2]; exact hp) (fun h => h.elim) hr⟩
    unfold closes at hc ⊢; rw [s1]; exact hc
  | resumeIfr hc hi hb hp _ hs hl _ _ ih =>
    intro U hu
    obtain ⟨t', U, rfl, b1, s1, hu⟩ := kinds_cons hu
    obtain ⟨a1, U, rfl, b2, s2, hu⟩ := kinds_cons hu
    obtain ⟨a2, U, rfl, b3, s3, hu⟩ := kinds_cons hu
    obtain ⟨a3, U, rfl, b4, s4, hu⟩ := kinds_cons hu
    obtain ⟨bs, hr⟩ := ih U hu
    rw [← kinds_fixed s2] at hr
    refine ⟨_, .resumeIfr ?_ (by rw [s1]; exact hi) (by rw [b1]; exact hb) (by rw [b2]; exact hp) (fun h => h.elim) (by rw [b3]; exact hs)
      (by rw [b4]; exact hl) (fun h => h.elim) hr⟩
    unfold closes at hc ⊢; rw [s1]; exact hc
  | resumeVfr hc hi hb hp hs hl _ ih =>
    intro U hu
    obtain ⟨t', U, rfl, b1, s1, hu⟩ := kinds_cons hu
    obtain ⟨a1, U, rfl, b2, s2, hu⟩ := kinds_cons hu
    obtain ⟨a2, U, rfl, b3, s3, hu⟩ := kinds_cons hu
    obtain ⟨a3, U, rfl, b4, s4, hu⟩ := kinds_cons hu
    obtain ⟨bs, hr⟩ := ih U hu
    refine ⟨_, .resumeVfr ?_ (by rw [s1]; exact hi) (by rw [b1]; exact hb) (by rw [b2]; exact hp) (by rw [b3]; exact hs)
      (by rw [b4]; exact hl) hr⟩
    unfold closes at hc ⊢; rw [s1]; exact hc


theorem kinds_unfit {q : Phase} {t u : Token} (hb : u.base = t.base) (hs : u.sub = t.sub) : unfit q u = unfit q t := by
  cases q <;> simp only [unfit, Phase.allows, isFixed, hb, hs]

theorem kinds_typed (u : List Token) : kindsOf (u.map assignSyntax) = kinds u := by
  unfold kindsOf kinds
  rw [List.map_map]; rfl

theorem kinds_append (a b : List Token) : kinds (a ++ b) = kinds a ++ kinds b := List.map_append

theorem kinds_flatMap (ps : List (List Token × Token)) : kinds (ps.flatMap (·.1)) = (pieceKinds ps).flatMap (·.1) := by
  unfold kinds pieceKinds
  rw [List.map_flatMap, List.flatMap_map]; rfl

theorem kinds_take (ps : List (List Token × Token)) (k : Nat) : pieceKinds (ps.take k) = (pieceKinds ps).take k := List.map_take

theorem pieceKinds_get {ps qs : List (List Token × Token)} (h : pieceKinds ps = pieceKinds qs) {k : Nat} {q : List Token × Token} (hq : qs[k]? = some q) :
    ∃ p, ps[k]? = some p ∧ kinds p.1 = kinds q.1 ∧ (assignSyntax q.2).base = (assignSyntax p.2).base ∧ (assignSyntax q.2).sub = (assignSyntax p.2).sub := by
  have := congrArg (·[k]?) h
  unfold pieceKinds at this
  simp only [List.getElem?_map, hq, Option.map_some] at this
  cases hp : ps[k]? with
  | none => rw [hp] at this; cases this
  | some p =>
    rw [hp] at this
    simp only [Option.map_some, Option.some.injEq, Prod.mk.injEq] at this
    exact ⟨p, rfl, this.1, this.2.1.symm, this.2.2.symm⟩

theorem runs_recs_filter (B : List Act) (e : Ers F) : (runs B e).recs = (B.filter (fun a => !a.isErr)).foldl (fun l a => a.recs l) e.recs := by
  induction B generalizing e with
  | nil => rfl
  | cons a B ih =>
    rw [runs_cons, ih]
    cases a <;> rfl

theorem runs_derived (B : List Act) (e : Ers F) : (runs B e).derived = e.derived := by
  induction B generalizing e with
  | nil => rfl
  | cons a B ih => rw [runs_cons, ih]; rfl

end F15
