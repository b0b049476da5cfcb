import Verif.Lemmas.Noise3
import Verif.Spec.Recover
import Verif.Props.Classify
/-!
# Stray words between the items: from accepted beginnings to cut sentences
-/

namespace F15
open Spec

set_option linter.unusedSectionVars false
variable {F : Type} [PyFloat F] {c : Prop}

/-- The state fits the phase at the end. -/
theorem fits_end {q : Phase} {u : List Token} {as : List Act} {z : Option Phase} (h : RunToG c q u as z) (hT : ∀ t ∈ u, Typed t)
    {p : Phase} (hz : z = some p) : ∀ e : Ers F, Fits q e → Fits p (runs as e) := by
  induction h with
  | here q => cases hz; exact fun e h => h
  | truncate | star => cases hz
  | sid hb hr ih => intro e hf; exact ih (fun x hx => hT x (by simp [hx])) hz _ (fits_two rfl hf.1 (.inl rfl))
  | dct hq hb hr ih => intro e hf; exact ih (fun x hx => hT x (by simp [hx])) hz _ (fits_two rfl hf.1 (.inr (.inl rfl)))
  | route hq hb hr ih => intro e hf; exact ih (fun x hx => hT x (by simp [hx])) hz _ (fits_two rfl hf.1 (.inr (.inr (.inl rfl))))
  | point hq hb hn hr ih => intro e hf; exact ih (fun x hx => hT x (by simp [hx])) hz _ (fits_push (.inl rfl) hf.1)
  | climb hq hb hr ih => intro e hf; exact ih (fun x hx => hT x (by simp [hx])) hz _ (fits_two rfl hf.1 (.inr (.inr (.inr rfl))))
  | cruise hq hb hs hp hs' hl hr ih =>
    intro e hf
    exact ih (fun x hx => hT x (by simp [hx])) hz _ (fits_note (climb_note hl) (fits_push (.inr (.inr rfl)) hf.1))
  | stay hq hb hs hm hr ih =>
    intro e hf
    have h2 := hf.two (fun h => by rw [h] at hq; simp [Phase.allows, hb] at hq)
    exact ih (fun x hx => hT x (by simp [hx])) hz _ ⟨Act.run_ne _ _ hf.1, two_note rfl hf.1 h2⟩
  | break_ hq hb hr ih =>
    intro e hf
    exact ih (fun x hx => hT x (by simp [hx])) hz _
      ⟨Act.run_ne _ _ hf.1, two_push rfl hf.1, headRules_brk (hT _ (by simp)) hb hf.1⟩
  | level hs hb hl hr ih => intro e hf; exact ih (fun x hx => hT x (by simp [hx])) hz _ (fits_note rfl hf)
  | vfr hs hb hr ih =>
    intro e hf
    exact ih (fun x hx => hT x (by simp [hx])) hz _ ⟨Act.run_ne _ _ hf.1, two_push rfl hf.1, headRules_vfr hf.1⟩
  | word hb hc hr ih =>
    intro e hf
    exact ih (fun x hx => hT x (by simp [hx])) hz _
      ⟨Act.run_ne _ _ hf.1, two_note rfl hf.1 hf.2.1, (headRules_text hf.1).trans hf.2.2⟩
  | resume hc hi hb hp hn hr ih =>
    rename_i r t p us as z
    intro e hf
    exact ih (fun x hx => hT x (by simp [hx])) hz _ (fits_push (.inl rfl) (Act.run_ne (.text t) e hf.1))
  | resumeIfr hc hi hb hp hn hs hl hk' hr ih =>
    rename_i r t p s l us as z
    intro e hf
    exact ih (fun x hx => hT x (by simp [hx])) hz _ (fits_note rfl (fits_push (.inr (.inl rfl)) (Act.run_ne (.text t) e hf.1)))
  | resumeVfr hc hi hb hp hs hl hr ih =>
    rename_i r t p s l us as z
    intro e hf
    have he2 := Act.run_ne (.vToIToV p) _ (Act.run_ne (.text t) e hf.1)
    exact ih (fun x hx => hT x (by simp [hx])) hz _ ⟨Act.run_ne _ _ he2, two_push rfl he2, headRules_vfr he2⟩

/-- The rules of free text. -/
def TextRules (q : Phase) : Prop := ∀ r, q = .text r → r ≠ py! "IFR"

theorem rules_end {q : Phase} {u : List Token} {as : List Act} {z : Option Phase} (h : RunToG c q u as z) (hT : ∀ t ∈ u, Typed t)
    {p : Phase} (hz : z = some p) (hq : TextRules q) : TextRules p := by
  induction h with
  | here q => cases hz; exact hq
  | truncate | star => cases hz
  | break_ hq' hb hr ih =>
    refine ih (fun x hx => hT x (by simp [hx])) hz ?_
    rintro _ ⟨⟩
    rcases break_sub (hT _ (List.mem_cons_self ..)) hb with h | h | h <;> rw [h] <;> decide
  | vfr _ _ _ ih | resumeVfr _ _ _ _ _ _ _ ih =>
    refine ih (fun x hx => hT x (by simp [hx])) hz ?_
    rintro _ ⟨⟩
    decide
  | word _ _ _ ih => exact ih (fun x hx => hT x (by simp [hx])) hz hq
  | _ =>
    rename_i ih
    refine ih (fun x hx => hT x (by simp [hx])) hz ?_
    rintro _ ⟨⟩

theorem last_climb {q : Phase} {u : List Token} {as : List Act} {z : Option Phase} (h : RunToG c q u as z)
    (hz : z = some .climb) : (u = [] ∧ q = .climb) ∨ ∃ t, u.getLast? = some t ∧ t.base = .C := by
  have more : ∀ (x : List Token) (ts : List Token), (∃ t, ts.getLast? = some t ∧ t.base = .C) →
      ∃ t, (x ++ ts).getLast? = some t ∧ t.base = .C := by
    rintro x ts ⟨t, h, hb⟩
    exact ⟨t, by rw [List.getLast?_append, h]; rfl, hb⟩
  induction h with
  | here q => cases hz; exact .inl ⟨rfl, rfl⟩
  | truncate | star => cases hz
  | climb hq hb hr ih =>
    rename_i q t ts as z
    right
    rcases ih hz with ⟨rfl, _⟩ | h
    · exact ⟨t, rfl, hb⟩
    · exact more [t] ts h
  | sid _ _ ih | dct _ _ _ ih | route _ _ _ ih | point _ _ _ _ ih | break_ _ _ _ ih | word _ _ _ ih =>
    rcases ih hz with ⟨_, h⟩ | h
    · cases h
    · exact .inr (more [_] _ h)
  | level _ _ _ _ ih | vfr _ _ _ ih | resume _ _ _ _ _ _ ih =>
    rcases ih hz with ⟨_, h⟩ | h
    · cases h
    · exact .inr (more [_, _] _ h)
  | stay _ _ _ _ _ ih =>
    rcases ih hz with ⟨_, h⟩ | h
    · cases h
    · exact .inr (more [_, _, _] _ h)
  | resumeIfr _ _ _ _ _ _ _ _ _ ih | resumeVfr _ _ _ _ _ _ _ ih =>
    rcases ih hz with ⟨_, h⟩ | h
    · cases h
    · exact .inr (more [_, _, _, _] _ h)
  | cruise _ _ _ _ _ _ _ ih =>
    rcases ih hz with ⟨_, h⟩ | h
    · cases h
    · exact .inr (more [_, _, _, _, _] _ h)

/-- After a STAR or a truncation nothing can follow. -/
theorem last_none {q : Phase} {u : List Token} {as : List Act} {z : Option Phase} (h : RunToG c q u as z)
    (hz : z = none) : ∃ t, u.getLast? = some t ∧ (t.base = .TRUNCATE ∨ t.base = .STAR ∨ t.base = .SID_STAR) := by
  have more : ∀ (x : List Token) (ts : List Token),
      (∃ t, ts.getLast? = some t ∧ (t.base = .TRUNCATE ∨ t.base = .STAR ∨ t.base = .SID_STAR)) →
      ∃ t, (x ++ ts).getLast? = some t ∧ (t.base = .TRUNCATE ∨ t.base = .STAR ∨ t.base = .SID_STAR) := by
    rintro x ts ⟨t, h, hb⟩
    exact ⟨t, by rw [List.getLast?_append, h]; rfl, hb⟩
  induction h with
  | here q => cases hz
  | truncate hq hb => exact ⟨_, rfl, .inl hb⟩
  | star hq hb => exact ⟨_, rfl, .inr (hb.imp id (·.1))⟩
  | climb _ _ _ ih | sid _ _ ih | dct _ _ _ ih | route _ _ _ ih | point _ _ _ _ ih | break_ _ _ _ ih | word _ _ _ ih =>
    exact more [_] _ (ih hz)
  | level _ _ _ _ ih | vfr _ _ _ ih | resume _ _ _ _ _ _ ih => exact more [_, _] _ (ih hz)
  | stay _ _ _ _ _ ih => exact more [_, _, _] _ (ih hz)
  | resumeIfr _ _ _ _ _ _ _ _ _ ih | resumeVfr _ _ _ _ _ _ _ ih => exact more [_, _, _, _] _ (ih hz)
  | cruise _ _ _ _ _ _ _ ih => exact more [_, _, _, _, _] _ (ih hz)

/-- Pieces that end between items make a chain. -/
theorem chain_of {ts : List Token} : ∀ (ps : List (List Token × Token)) {b : Bool} {q : Phase} {bs : List Act} {z : Option Phase},
    RunToG c q (inPieces ps ts) bs z → (ts ≠ [] ∨ z ≠ none) → (b = true → Open (some q)) →
    (∀ p ∈ ps, Typed p.2) →
    (∀ k p, ps[k]? = some p → 0 < k ∨ b = true → p.1 = [] → foreignBase p.2.base = true) →
    (∀ k p, ps[k]? = some p → ∃ as y, RunToG c q ((ps.take (k + 1)).flatMap (·.1)) as y ∧ Open y ∧ ∀ z, y = some z → unfit z p.2 = true) →
    Chain c b q ps ts bs := by
  intro ps
  induction ps with
  | nil => intro b q bs z h _ hb _ _ _; exact .last hb h.run
  | cons p ps ih =>
    obtain ⟨u, w⟩ := p
    intro b q bs z h hts hb hs hf hk
    obtain ⟨as, y, h0, ho, hu⟩ := hk 0 (u, w) rfl
    simp only [List.take_succ_cons, List.take_zero, List.flatMap_cons, List.flatMap_nil, List.append_nil] at h0
    have hj : inPieces ((u, w) :: ps) ts = u ++ inPieces ps ts := by unfold inPieces; simp
    obtain ⟨cs, rfl, hr⟩ := h0.extend ho h hj
    cases y with
    | none =>
      obtain ⟨h1, _, h2⟩ := hr
      unfold inPieces at h1
      rcases hts with h | h
      · simp [h] at h1
      · exact absurd h2 h
    | some p =>
      refine .cut hb h0 ho (hu p rfl) (hs (u, w) (by simp)) (fun h1 h2 => hf 0 (u, w) rfl (.inr h1) h2) ?_
      refine ih hr hts (fun _ => ho) (fun x hx => hs x (by simp [hx])) (fun k p hp _ h => hf (k + 1) p (by simpa using hp) (.inl (by omega)) h) ?_
      intro k p' hk'
      obtain ⟨as', y, h1, ho', hu'⟩ := hk (k + 1) p' hk'
      rw [List.take_succ_cons, List.flatMap_cons] at h1
      obtain ⟨cs', _, hr'⟩ := h0.extend ho h1 rfl
      exact ⟨cs', y, hr', ho', hu'⟩

/-- The start of a sentence. -/
def startPhase (t : Token) : Phase := if t.base = .SPEED_VFR then .text (py! "VFR") else .adep
def startAct (t : Token) : Act := if t.base = .SPEED_VFR then .vfr t else .level t

theorem sentRun_startG {t : Token} {rest : List Token} {as : List Act} (h : SentRunG c (t :: rest) as) :
    ∃ bs, as = startAct t :: bs ∧ RunG c (startPhase t) rest bs ∧ (c → (startAct t).nums = []) ∧
      (t.base = .SPEED_VFR ∨ t.base = .SPEED_ALTITUDE) := by
  unfold startAct startPhase
  cases h with
  | ifr hb hl hne h => rw [if_neg (by rw [hb]; decide), if_neg (by rw [hb]; decide)]; exact ⟨_, rfl, h, hl, .inr hb⟩
  | vfr hb h => rw [if_pos hb, if_pos hb]; exact ⟨_, rfl, h, fun _ => rfl, .inl hb⟩

theorem sentRun_start {t : Token} {rest : List Token} {as : List Act} (h : SentRun (t :: rest) as) :
    ∃ bs, as = startAct t :: bs ∧ Run (startPhase t) rest bs ∧ (startAct t).nums = [] ∧
      (t.base = .SPEED_VFR ∨ t.base = .SPEED_ALTITUDE) := by
  obtain ⟨bs, h1, h2, h3, h4⟩ := sentRun_startG h
  exact ⟨bs, h1, h2, h3 trivial, h4⟩

theorem fits_start {t : Token} (hb : t.base = .SPEED_VFR ∨ t.base = .SPEED_ALTITUDE) :
    Fits (startPhase t) ((startAct t).run (Ers.new : Ers F)) := by
  have hne : (Ers.new : Ers F).recs ≠ [] := by intro h; cases h
  unfold startPhase startAct
  rcases hb with hb | hb
  · rw [if_pos hb, if_pos hb]
    exact ⟨Act.run_ne _ _ hne, two_push rfl hne, headRules_vfr hne⟩
  · rw [if_neg (by rw [hb]; decide), if_neg (by rw [hb]; decide)]
    exact ⟨Act.run_ne _ _ hne, (run_note (a := .level t) rfl hne).1.trans rfl⟩

theorem base_C_text {t : Token} (ht : Typed t) (hb : t.base = .C) : t.text = py! "C" := by
  unfold Typed at ht
  rw [← ht] at hb
  unfold assignSyntax at hb
  dsimp only at hb
  split at hb
  · cases hb
  · exact (c10_keywords t.text).2.2.2.1.1 hb

theorem mapOldest_consN (f : Record F → Record F) (x : Record F) {l : List (Record F)} (h : l ≠ []) :
    mapOldest f (x :: l) = x :: mapOldest f l := by
  unfold mapOldest
  rw [List.reverse_cons]
  cases hl : l.reverse with
  | nil => exact absurd (by simpa using hl) h
  | cons c l' => simp [mapHead]

theorem last_rules_fin (t : Token) (a b : Record F) (l errs : List (Record F)) (d : Str) :
    (finErs (post t ⟨a :: b :: l, errs, d⟩)).elements.getLast?.map (·.rules) = some a.rules := by
  unfold post finErs Ers.elements
  split
  · rw [mapOldest_consN _ _ (by simp)]
    simp [adesRec, Record.setRules]
  · simp [adesRec, Record.setRules]

/-- An accepted beginning that ends between items. -/
theorem between_run {frames : Nat} {t : Token} {u : List Token} (h : Between F frames (t :: u)) :
    ∃ as y, RunTo (startPhase (assignSyntax t)) (u.map assignSyntax) as y ∧ Open y := by
  rcases h with ⟨t', h, hb⟩ | ⟨⟨e, h, hr⟩, hl⟩
  · cases h
    refine ⟨[], _, .here _, ?_⟩
    unfold startPhase; rw [if_neg (by rw [hb]; decide)]; trivial
  · have hT : ∀ x ∈ (t :: u).map assignSyntax, Typed x := fun x hx => typed_map hx
    rw [parse_eq] at h
    obtain ⟨t', rest, as, heq, hs, he⟩ := accepted (F := F) rfl rfl hT h
    rw [List.map_cons] at heq hs hT
    cases heq
    obtain ⟨bs, rfl, hrun, _, hb⟩ := sentRun_start hs
    obtain ⟨y, hto⟩ := hrun.to
    refine ⟨bs, y, hto, ?_⟩
    have hT' : ∀ x ∈ u.map assignSyntax, Typed x := fun x hx => typed_map hx
    cases y with
    | none => trivial
    | some p =>
      cases p with
      | text r =>
        exfalso
        have hf := fits_end hto hT' rfl _ (fits_start (F := F) hb)
        have hr' := rules_end hto hT' rfl (by
          intro r h
          unfold startPhase at h
          split at h
          · cases h; decide
          · cases h) r rfl
        subst he
        rw [runs_cons] at hr
        obtain ⟨h1, h2, h3⟩ := hf
        generalize runs bs ((startAct (assignSyntax t)).run (Ers.new : Ers F)) = E at *
        obtain ⟨recs, errs, d⟩ := E
        match recs, h2 with
        | a :: b :: l, _ =>
          apply hr'
          rw [← h3]
          rw [last_rules_fin] at hr
          exact Option.some.inj hr
      | climb =>
        exfalso
        rcases last_climb hto rfl with ⟨_, h⟩ | ⟨c, hc, hcb⟩
        · unfold startPhase at h; split at h <;> cases h
        · have hcT := hT' c (List.mem_of_getLast? hc)
          rw [List.getLast?_map] at hc
          cases hu : u.getLast? with
          | none => rw [hu] at hc; cases hc
          | some x =>
            rw [hu] at hc
            cases hc
            apply hl
            have hx := base_C_text hcT hcb
            have : (t :: u).getLast? = some x := by
              rw [List.getLast?_cons, hu]; rfl
            rw [this]
            show some x.text = _
            rw [← hx]
            congr 1
            unfold assignSyntax; dsimp only; split <;> rfl
      | _ => trivial

end F15
