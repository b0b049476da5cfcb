import Verif.Lemmas.Noise2
/-!
# Stray words between the items: cut sentences
-/

namespace F15
open Spec

set_option linter.unusedSectionVars false
variable {F : Type} [PyFloat F] {c : Prop}
variable {e : Ers F} {t : Token} {ts : List Token} {r : Ers F}

theorem Evs.inv {c c' : Call} {e e' : Ers F} {ts ts' : List Token} {r : Ers F} (h : Evs c e ts r)
    (hs : ∀ call : Call → ML F Unit, step call c ⟨e, ts⟩ = call c' ⟨e', ts'⟩) : Evs c' e' ts' r := by
  obtain ⟨n, h⟩ := h
  exact ⟨n, fun m hm => (hs (exec m)).symm.trans (h (m + 1) (by omega))⟩

theorem resync_item {c : Call} (hc : itemCall t = some c) (h : Evs c e ts r) : Evs .reSync e (t :: ts) r := by
  refine .of1 h fun call => ?_
  rw [step_reSync]
  dsimp only
  unfold itemCall at hc
  cases hb : t.base <;> rw [hb] at hc <;> cases hc <;> rfl

theorem item_not_stray {c : Call} (hc : itemCall t = some c) : strayBase t.base = false := by
  unfold itemCall at hc
  cases hb : t.base <;> rw [hb] at hc <;> first | cases hc; rfl | cases hc

/-- What an item starts with. -/
theorem starts {q : Phase} {u : List Token} {as : List Act} {z : Option Phase} (ho : Open (some q)) (h : RunToG c q (t :: u) as z) :
    (q.allows t = true ∧ (itemCall t).isSome) ∨
    (∃ f l u', q = .point f ∧ t.base = .SLASH ∧ u = l :: u' ∧ (l.base = .SPEED_ALTITUDE ∨ l.base = .SPEED_VFR)) := by
  cases h
  case truncate hq hb | dct hb hq | route hb hq | climb hb hq | break_ hb hq | point hb hq =>
    left; refine ⟨by assumption, ?_⟩; unfold itemCall; simp_all
  case star =>
    left
    refine ⟨by assumption, ?_⟩
    have hb : t.base = .STAR ∨ t.base = .SID_STAR ∧ q ≠ .adep := by assumption
    unfold itemCall
    rcases hb with hb | ⟨hb, _⟩ <;> rw [hb] <;> rfl
  case sid =>
    left
    have hb : t.base = .SID ∨ t.base = .SID_STAR := by assumption
    unfold itemCall
    rcases hb with hb | hb <;> rw [hb] <;> simp [Phase.allows, hb]
  case cruise => left; refine ⟨by assumption, ?_⟩; unfold itemCall; simp_all
  case stay => left; refine ⟨by assumption, ?_⟩; unfold itemCall; simp_all
  case level => right; exact ⟨_, _, _, rfl, by assumption, rfl, .inl (by assumption)⟩
  case vfr => right; exact ⟨_, _, _, rfl, by assumption, rfl, .inr (by assumption)⟩
  all_goals exact ho.elim

/-- After an error, an item is read as it is read without. -/
theorem resync_run {q : Phase} {u : List Token} {as : List Act} {z : Option Phase} (ho : Open (some q)) (h : RunToG c q (t :: u) as z)
    (hf : Fits q e) (hg : NGoes q e (t :: u ++ ts) r) : Evs .reSync e (t :: u ++ ts) r := by
  rcases starts ho h with ⟨hq, hi⟩ | ⟨f, l, u', rfl, hs, rfl, hl⟩
  · obtain ⟨c, hc⟩ := Option.isSome_iff_exists.1 hi
    have hg : Goes q e (t :: (u ++ ts)) r := by
      rcases hg with h | ⟨w, ts', heq, hw, _⟩
      · exact h
      · simp only [List.cons_append, List.cons.injEq] at heq
        rw [← heq.1] at hw; unfold unfit at hw; rw [hq] at hw; cases hw
    refine resync_item hc ?_
    cases q with
    | text r => exact ho.elim
    | climb => exact ho.elim
    | adep =>
      refine Evs.inv hg fun call => ?_
      show postAdep call t _ = _
      unfold postAdep
      unfold itemCall at hc
      cases hb : t.base <;> rw [hb] at hc <;> simp [Phase.allows, hb] at hq <;> cases hc <;> rfl
    | point f =>
      refine Evs.inv hg fun call => ?_
      rw [step_postPoint call t e _ hf.1]
      unfold itemCall at hc
      cases hb : t.base <;> rw [hb] at hc <;> simp [Phase.allows, hb] at hq <;> cases hc <;> try rfl
      dsimp only
      rw [headSub_eq, hf.2.2, hq, if_neg (by decide)]; rfl
    | sid | dct | route | stay =>
      obtain ⟨c', _, hc', h⟩ := hg
      rw [hc] at hc'
      cases hc'
      exact h
  · have hg : Goes (.point f) e (t :: l :: (u' ++ ts)) r := ngoes hg (by simp)
    have h1 : Evs (.forwardSlash t) e (l :: (u' ++ ts)) r := Evs.inv hg fun call => by rw [step_postPoint call t e _ hf.1, hs]
    rcases hl with hl | hl
    · have h2 : Evs (.assignSpeedAltitude l) e (u' ++ ts) r := Evs.inv h1 fun call => by rw [step_slash]; dsimp only; rw [hl]
      refine .of1 h2 fun call => ?_
      show step call .reSync ⟨e, t :: l :: (u' ++ ts)⟩ = _
      rw [step_reSync]
      dsimp only
      rw [hs]
      dsimp only
      rw [hl]
    · have h2 : Evs (.assignSpeedVfr l) e (u' ++ ts) r := Evs.inv h1 fun call => by rw [step_slash]; dsimp only; rw [hl]
      refine .of1 h2 fun call => ?_
      show step call .reSync ⟨e, t :: l :: (u' ++ ts)⟩ = _
      rw [step_reSync]
      dsimp only
      rw [hs]
      dsimp only
      rw [hl]

/-- A stray word between two items. -/
theorem stray_goes {q : Phase} {w : Token} (ho : Open (some q)) (hw : unfit q w = true) (ht : Typed w) (hf : Fits q e)
    (h : Evs (.addErrorAndReSync w (unexpected q w)) e ts r) : NGoes q e (w :: ts) r := by
  cases q with
  | text r => exact ho.elim
  | climb => exact ho.elim
  | adep =>
    refine .inl (Evs.of1 h fun call => ?_)
    show postAdep call w _ = _
    unfold postAdep unexpected misplaced
    cases hb : w.base <;> first | rfl | (simp [unfit, Phase.allows, hb] at hw)
  | point f =>
    by_cases hb : w.base = .BREAK_END
    · have : unexpected (.point f) w = misplaced w := by unfold unexpected; rw [hb]
      rw [this] at h
      exact .inl (Evs.of1 (bee_evs ht hb h) fun call => by rw [step_postPoint call w e _ hf.1, hb])
    · refine .inl (Evs.of1 h fun call => ?_)
      rw [step_postPoint call w e _ hf.1]
      unfold unexpected misplaced
      cases hb' : w.base <;> first | exact absurd hb' hb | rfl | (simp [unfit, Phase.allows, hb'] at hw)
      dsimp only
      rw [headSub_eq, hf.2.2, hw, if_pos rfl]
  | sid => exact .inr ⟨w, ts, rfl, hw, ht, by simp, h⟩
  | dct => exact .inr ⟨w, ts, rfl, hw, ht, by simp, h⟩
  | route => exact .inr ⟨w, ts, rfl, hw, ht, by simp, h⟩
  | stay => exact .inr ⟨w, ts, rfl, hw, ht, by simp, h⟩

/-- Types of tokens that are not even taken up again after an error. -/
def foreignBase (b : BaseType) : Bool := [BaseType.UNKNOWN, .TOO_LONG, .STAY_TIME].contains b

theorem stray_resync {w : Token} (hw : foreignBase w.base = true)
    (h : Evs (.addErrorAndReSync w (misplaced w)) e ts r) : Evs .reSync e (w :: ts) r := by
  refine .of1 h fun call => ?_
  rw [step_reSync]
  unfold misplaced
  dsimp only
  cases hb : w.base <;> rw [hb] at hw <;> first | rfl | cases hw

theorem unexpected_plain {q : Phase} {w : Token} (ho : Open (some q)) (hw : unfit q w = true) :
    (errorMessage (unexpected q w)).isSome := by
  unfold unexpected misplaced
  cases q <;> cases hb : w.base <;> first | exact ho.elim | rfl | (dsimp only; split <;> rfl) | (simp [unfit, Phase.allows, hb] at hw)

theorem misplaced_plain {w : Token} (hw : foreignBase w.base = true) : (errorMessage (misplaced w)).isSome := by
  unfold misplaced
  cases hb : w.base <;> rw [hb] at hw <;> first | rfl | cases hw

theorem err_evs {w : Token} {n : Nat} (hn : (errorMessage n).isSome) (he : e.recs ≠ [])
    (h : Evs .reSync ((Act.err w n).run e) ts r) : Evs (.addErrorAndReSync w n) e ts r :=
  .of1 h fun call => step_err call w n hn e ts he

theorem fits_err {q : Phase} {w : Token} {n : Nat} (h : Fits q e) : Fits q ((Act.err w n).run e) := h

/-- A sentence cut into pieces; each cut with its stray word. `b`: the reading begins right after an error. -/
inductive Chain (c : Prop) : Bool → Phase → List (List Token × Token) → List Token → List Act → Prop
  | last {b q ts as} (hb : b = true → Open (some q)) (h : RunG c q ts as) : Chain c b q [] ts as
  | cut {b q u w p ps ts as bs} (hb : b = true → Open (some q)) (h : RunToG c q u as (some p)) (ho : Open (some p))
      (hw : unfit p w = true) (ht : Typed w) (hf : b = true → u = [] → foreignBase w.base = true)
      (hc : Chain c true p ps ts bs) : Chain c b q ((u, w) :: ps) ts (as ++ bs)

/-- The tokens with the stray words. -/
def noisy (ps : List (List Token × Token)) (ts : List Token) : List Token := ps.flatMap (fun p => p.1 ++ [p.2]) ++ ts

theorem noisy_cons (u : List Token) (w : Token) (ps : List (List Token × Token)) (ts : List Token) :
    noisy ((u, w) :: ps) ts = u ++ (w :: noisy ps ts) := by
  unfold noisy; simp

def Act.isErr : Act → Bool
  | .err _ _ => true
  | _ => false

/-- `A` is `as` with one error for each of `ws`. -/
def AddsErr (A as : List Act) (ws : List Token) : Prop :=
  A.filter (fun a => !a.isErr) = as.filter (fun a => !a.isErr) ∧
  ∃ ns : List Nat, (∀ n ∈ ns, (errorMessage n).isSome) ∧ A.filter (·.isErr) = (ws.zip ns).map (fun p => .err p.1 p.2) ∧ ns.length = ws.length

theorem RunG.noErr {q : Phase} {ts : List Token} {as : List Act} (h : RunG c q ts as) : ∀ a ∈ as, a.isErr = false := by
  induction h with
  | stop | truncate => simp
  | cruise _ _ _ _ _ hl _ ih =>
    intro a ha
    simp only [List.mem_cons] at ha
    rcases ha with rfl | rfl | ha
    · rfl
    · rcases hl with ⟨_, _, rfl, _⟩ | ⟨_, rfl, _⟩ <;> rfl
    · exact ih a ha
  | _ => simp_all [Act.isErr]

/-- The words of the actions are words read. -/
theorem RunG.toks {q : Phase} {ts : List Token} {as : List Act} (h : RunG c q ts as) : ∀ a ∈ as, a.tok ∈ ts := by
  induction h with
  | stop | truncate => simp
  | cruise _ _ _ _ _ hl _ ih =>
    intro a ha
    simp only [List.mem_cons] at ha
    rcases ha with rfl | rfl | ha
    · simp [Act.tok]
    · rcases hl with ⟨_, _, rfl, _⟩ | ⟨_, rfl, _⟩ <;> simp [Act.tok]
    · simp [ih a ha]
  | star => simp [Act.tok]
  | resume _ _ _ _ _ _ ih =>
    intro a ha
    simp only [List.mem_cons] at ha ⊢
    rcases ha with rfl | rfl | ha
    · exact .inl rfl
    · exact .inr (.inl rfl)
    · exact .inr (.inr (ih a ha))
  | resumeIfr _ _ _ _ _ _ _ _ _ ih | resumeVfr _ _ _ _ _ _ _ ih =>
    intro a ha
    simp only [List.mem_cons] at ha ⊢
    rcases ha with rfl | rfl | rfl | ha
    · exact .inl rfl
    · exact .inr (.inl rfl)
    · exact .inr (.inr (.inr (.inl rfl)))
    · exact .inr (.inr (.inr (.inr (ih a ha))))
  | _ =>
    rename_i ih
    intro a ha
    rcases List.mem_cons.1 ha with rfl | ha
    · simp [Act.tok]
    · simp [ih a ha]

/-- `A` is `as` cut into parts, one for each of the pieces `ps`, with an error for each cut, and `last`. -/
def Woven (A as : List Act) (ps : List (List Token × Token)) (ts : List Token) : Prop :=
  ∃ (segs : List (List Act × Nat)) (last : List Act), segs.length = ps.length ∧
    A = (segs.zip ps).flatMap (fun x => x.1.1 ++ [.err x.2.2 x.1.2]) ++ last ∧ as = segs.flatMap (·.1) ++ last ∧
    (∀ x ∈ segs.zip ps, (∀ a ∈ x.1.1, a.tok ∈ x.2.1) ∧ (errorMessage x.1.2).isSome) ∧ ∀ a ∈ last, a.tok ∈ ts

theorem woven_cut {A as bs : List Act} {u : List Token} {w : Token} {n : Nat} {ps : List (List Token × Token)} {ts : List Token}
    (hn : (errorMessage n).isSome) (h : Woven A bs ps ts) (ha : ∀ a ∈ as, a.tok ∈ u) :
    Woven (as ++ .err w n :: A) (as ++ bs) ((u, w) :: ps) ts := by
  obtain ⟨segs, last, h1, rfl, rfl, h2, h3⟩ := h
  refine ⟨(as, n) :: segs, last, by simp [h1], by simp, by simp, ?_, h3⟩
  intro x hx
  rw [List.zip_cons_cons, List.mem_cons] at hx
  rcases hx with rfl | hx
  · exact ⟨ha, hn⟩
  · exact h2 x hx

theorem adds_cut {A as bs : List Act} {w : Token} {n : Nat} {ws : List Token} (hn : (errorMessage n).isSome)
    (h : AddsErr A bs ws) (ha : ∀ a ∈ as, a.isErr = false) : AddsErr (as ++ .err w n :: A) (as ++ bs) (w :: ws) := by
  obtain ⟨h1, ns, h2, h3, h4⟩ := h
  have e1 : as.filter (·.isErr) = [] := by rw [List.filter_eq_nil_iff]; intro a h; rw [ha a h]; decide
  refine ⟨?_, n :: ns, ?_, ?_, ?_⟩
  · rw [List.filter_append, List.filter_append, List.filter_cons_of_neg (by simp [Act.isErr]), h1]
  · intro m hm
    rcases List.mem_cons.1 hm with rfl | hm
    · exact hn
    · exact h2 m hm
  · rw [List.filter_append, e1, List.filter_cons_of_pos (by rfl), h3]; rfl
  · simp [h4]

theorem chain_reads {b : Bool} {q : Phase} {ps : List (List Token × Token)} {ts : List Token} {as : List Act}
    (h : Chain c b q ps ts as) (hT : ∀ t ∈ noisy ps ts, Typed t) :
    ∃ A, (AddsErr A as (ps.map (·.2)) ∧ Woven A as ps ts) ∧ ∀ e : Ers F, Fits q e →
      if b then Evs .reSync e (noisy ps ts) (runs A e) else NGoes q e (noisy ps ts) (runs A e) := by
  induction h with
  | last hb h =>
    rename_i b q ts as
    have hn : as.filter (·.isErr) = [] := by rw [List.filter_eq_nil_iff]; intro a ha; rw [h.noErr a ha]; decide
    refine ⟨as, ⟨⟨rfl, [], by simp, by simpa using hn, rfl⟩, [], as, rfl, by simp, by simp, by simp, h.toks⟩, ?_⟩
    intro e hf
    have hT : ∀ t ∈ ts, Typed t := by simpa [noisy] using hT
    have g : NGoes q e ts (runs as e) := .inl (bwd h hT e hf)
    show if b then Evs .reSync e ([] ++ ts) _ else NGoes q e ([] ++ ts) _
    rw [List.nil_append]
    cases b with
    | false => exact g
    | true =>
      obtain ⟨z, h⟩ := h.to
      cases ts with
      | nil => rcases g with g | ⟨w, ts', h, _⟩
               · have g : runs as e = e := g
                 rw [g]
                 exact .done fun call => by rw [step_reSync]
               · cases h
      | cons t u =>
        have := resync_run (hb rfl) h hf (ts := []) (r := runs as e) (by simpa using g)
        simpa using this
  | cut hb h ho hw ht hfo hc ih =>
    rename_i b q u w p ps ts as bs
    rw [noisy_cons] at hT ⊢
    obtain ⟨A, hA, hk⟩ := ih (fun t ht => hT t (by simp [ht]))
    simp only [if_true] at hk
    have stray : ∀ e : Ers F, Fits p e → NGoes p e (w :: noisy ps ts) (runs (.err w (unexpected p w) :: A) e) := fun e hf =>
      stray_goes ho hw ht hf (err_evs (unexpected_plain ho hw) hf.1 (hk _ (fits_err hf)))
    have go := bwd_to h (fun t ht => hT t (by simp [ht])) rfl ho stray
    cases b with
    | false => exact ⟨_, ⟨adds_cut (unexpected_plain ho hw) hA.1 h.run.noErr, woven_cut (unexpected_plain ho hw) hA.2 h.run.toks⟩, go⟩
    | true =>
      cases u with
      | nil =>
        cases h
        refine ⟨[] ++ .err w (misplaced w) :: A, ⟨adds_cut (misplaced_plain (hfo rfl rfl)) hA.1 (by simp), woven_cut (misplaced_plain (hfo rfl rfl)) hA.2 (by simp)⟩, ?_⟩
        intro e hf
        exact stray_resync (hfo rfl rfl) (err_evs (misplaced_plain (hfo rfl rfl)) hf.1 (hk _ (fits_err hf)))
      | cons t u =>
        refine ⟨_, ⟨adds_cut (unexpected_plain ho hw) hA.1 h.run.noErr, woven_cut (unexpected_plain ho hw) hA.2 h.run.toks⟩, ?_⟩
        intro e hf
        exact resync_run (hb rfl) h hf (go e hf)

/-- The effect of the actions: the elements as without errors, and the errors. -/
theorem adds_runs {A as : List Act} {ws : List Token} (h : AddsErr A as ws) (hc : ∀ a ∈ as, a.nums = []) (e : Ers F) :
    (runs A e).recs = (runs as e).recs ∧ (runs A e).derived = e.derived ∧
    ∃ ns : List Nat, (∀ n ∈ ns, (errorMessage n).isSome) ∧ ns.length = ws.length ∧
      (runs A e).errs = ((ws.zip ns).map fun p => errRec p.1 p.2).reverse ++ e.errs := by
  have rec_only : ∀ (B : List Act) (e : Ers F), (runs B e).recs = (B.filter (fun a => !a.isErr)).foldl (fun l a => a.recs l) e.recs := by
    intro B
    induction B with
    | nil => intro e; rfl
    | cons a B ih =>
      intro e
      rw [runs_cons, ih]
      cases a <;> rfl
  have errs_only : ∀ (B : List Act) (e : Ers F), (∀ a ∈ B, a.isErr = false → a.nums = []) →
      (runs B e).errs = (B.filter (·.isErr)).foldl (fun l a => ((a.nums.map (errRec a.tok)).reverse) ++ l) e.errs := by
    intro B
    induction B with
    | nil => intro e _; rfl
    | cons a B ih =>
      intro e hB
      rw [runs_cons, ih _ (fun x hx => hB x (by simp [hx])), run_errs]
      cases hx : a.isErr with
      | true => rw [List.filter_cons_of_pos (by simp [hx])]; rfl
      | false =>
        rw [List.filter_cons_of_neg (by simp [hx]), hB a (by simp) hx]; rfl
  have der : ∀ (B : List Act) (e : Ers F), (runs B e).derived = e.derived := by
    intro B
    induction B with
    | nil => intro e; rfl
    | cons a B ih => intro e; rw [runs_cons, ih]; rfl
  obtain ⟨h1, ns, h2, h3, h4⟩ := h
  refine ⟨by rw [rec_only, rec_only, h1], der A e, ns, h2, h4, ?_⟩
  rw [errs_only, h3]
  · generalize e.errs = l
    generalize hz : ws.zip ns = z
    clear hz h3
    induction z generalizing l with
    | nil => rfl
    | cons p z ih =>
      simp only [List.map_cons, List.foldl_cons, List.reverse_cons, List.append_assoc]
      rw [ih]; rfl
  · intro a ha hn
    have : a ∈ A.filter (fun a => !a.isErr) := List.mem_filter.2 ⟨ha, by simp [hn]⟩
    rw [h1] at this
    exact hc a (List.mem_filter.1 this).1

end F15
