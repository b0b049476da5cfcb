import Verif.Lemmas.Equations
/-!
# Evaluation equations of the speed/level methods
-/

namespace F15
open Spec

set_option linter.unusedSectionVars false
variable {F : Type} [PyFloat F]
variable (call : Call → ML F Unit)

theorem does_levelSpeed (t : Token) (lv sp : Str) (hl : Unit1 lv) (hs : Unit1 sp) :
    Does (F := F) (levelSpeed t lv sp) t (granErr lv) (mapHead (setSpeed sp ∘ setLevel lv)) :=
  ((does_assignAltitude t lv hl).bind (does_assignSpeed t sp hs)).congr (by simp) fun l => mapHead_mapHead _ _ l

theorem does_levelLevelSpeed (t : Token) (lv lv2 sp : Str) (hl : Unit1 lv) (h2 : Unit1 lv2) (hs : Unit1 sp) :
    Does (F := F) (levelLevelSpeed t lv lv2 sp) t (granErr lv ++ granErr lv2)
      (mapHead (setSpeed sp ∘ setCruise lv2 ∘ setLevel lv)) :=
  ((does_assignAltitude t lv hl).bind ((does_assignCruise t lv2 h2).bind (does_assignSpeed t sp hs))).congr
    (by simp) fun l => by cases l <;> rfl

theorem does_levelPlusSpeed (t : Token) (lv p sp : Str) (hl : Unit1 lv) (hs : Unit1 sp) :
    Does (F := F) (levelPlusSpeed t lv p sp) t (granErr lv) (mapHead (setSpeed sp ∘ setPlus p ∘ setLevel lv)) :=
  ((does_assignAltitude t lv hl).bind ((does_modLast t (setPlus p)).bind (does_assignSpeed t sp hs))).congr
    (by simp) fun l => by cases l <;> rfl

theorem head?_some {e : Ers F} (he : e.recs ≠ []) : e.recs.head? = some (e.recs.head he) := List.head?_eq_some_head he

theorem step_level (t : Token) (ht : Typed t) (hb : t.base = .SPEED_ALTITUDE) (e : Ers F) (ts : List Token)
    (he : e.recs ≠ []) :
    step call (.assignSpeedAltitude t) ⟨e, ts⟩ = match ts with
      | [] => done ((Act.level t).run e) []
      | nt :: ts => if e.recs.length = 1 then call (.postAdep nt) ⟨(Act.level t).run e, ts⟩
        else call (.postPoint nt) ⟨(Act.level t).run e, ts⟩ := by
  have hm : t.sub ∈ machSA ++ otherSA := typed_in ht _ hb _ (by decide) (by decide +kernel)
  obtain ⟨hsp, hlv, _⟩ := level_facts ht hb
  have key : ∀ lv sp, lv = restOf t.text → sp = spOf t.text →
      (levelSpeed t lv sp >>= fun _ => modLast toIfr >>= fun _ => nextToken >>= fun x => match x with
        | none => pure ()
        | some nt => numElements >>= fun n => if n = 1 then call (.postAdep nt) else call (.postPoint nt)) ⟨e, ts⟩ =
      match ts with
      | [] => done ((Act.level t).run e) []
      | nt :: ts => if e.recs.length = 1 then call (.postAdep nt) ⟨(Act.level t).run e, ts⟩
        else call (.postPoint nt) ⟨(Act.level t).run e, ts⟩ := by
    rintro _ _ rfl rfl
    have h1 := does_levelSpeed (F := F) t _ _ (unit1_level hlv) (unit1_speed hsp)
    have h2 := does_modLast (F := F) t toIfr
    have hr : upd t [] (mapHead toIfr) (upd t (granErr (restOf t.text))
        (mapHead (setSpeed (spOf t.text) ∘ setLevel (restOf t.text))) e) = (Act.level t).run e := by
      rw [upd_upd, List.append_nil]
      show upd _ _ _ e = upd _ _ _ e
      congr 1
      funext l; exact mapHead_mapHead _ _ l
    have hn : ((Act.level t).run e).recs.length = e.recs.length := by
      obtain ⟨recs, errs, d⟩ := e
      cases recs <;> rfl
    rw [bd h1 he, bd h2 (upd_ne h1.ne he), hr]
    cases ts with
    | nil => rfl
    | cons nt ts =>
      rw [bind_cons]
      dsimp only
      rw [bind_num, hn]
      split <;> rfl
  show (lastElement >>= _) _ = _
  rw [bind_last, head?_some he]
  have a1 : slice t.text 0 4 = t.text.take 4 := slice_nat t.text 0 4
  have a2 : slice t.text 0 5 = t.text.take 5 := slice_nat t.text 0 5
  have a3 : sliceFrom t.text 4 = t.text.drop 4 := sliceFrom_nat t.text 4
  have a4 : sliceFrom t.text 5 = t.text.drop 5 := sliceFrom_nat t.text 5
  dsimp only
  rw [a1, a2, a3, a4]
  rcases List.mem_append.1 hm with h | h
  · have hM := (level_mach ht h).1
    have k := key (t.text.drop 4) (t.text.take 4) (by unfold restOf; rw [if_pos hM]) (by unfold spOf; rw [if_pos hM])
    simp only [machSA, List.mem_cons, List.not_mem_nil, or_false] at h
    rcases h with h | h | h | h <;> rw [h] <;> exact k
  · have hM := (level_other ht h).1
    have k := key (t.text.drop 5) (t.text.take 5) (by unfold restOf; rw [if_neg hM]) (by unfold spOf; rw [if_neg hM])
    simp only [otherSA, List.mem_cons, List.not_mem_nil, or_false] at h
    rcases h with h | h | h | h | h | h | h | h <;> rw [h] <;> exact k

theorem rulesThen (t : Token) (e : Ers F) (ts : List Token) (he : e.recs ≠ []) :
    rulesThenPostPoint call ⟨e, ts⟩ = match ts with
      | [] => done (upd t [] (mapHead toIfr) e) []
      | nt :: ts => call (.postPoint nt) ⟨upd t [] (mapHead toIfr) e, ts⟩ := by
  show (modLast toIfr >>= fun _ => nextToken >>= _) _ = _
  rw [bd (does_modLast t toIfr) he]
  cases ts <;> rfl

/-- Facts about the four groups. -/
theorem cc_split {t : Token} (ht : Typed t) (mach fa : Bool) (subs : List SubType) (hs : t.sub ∈ subs)
    (hk : (table.all fun r => !(subs.contains r.sub) || r.words.all (ccChk mach fa)) = true)
    (hu : subs.contains .UNKNOWN = false) :
    spOf t.text = t.text.take (if mach then 4 else 5) ∧
    lv1Of t.text = (t.text.drop (if mach then 4 else 5)).take (if fa then 4 else 5) ∧
    tailOf t.text = (t.text.drop (if mach then 4 else 5)).drop (if fa then 4 else 5) ∧
    ccExact t.text = (!mach && fa) := by
  obtain ⟨w, hc, hw⟩ := cc_word ht mach fa subs hs hk hu
  obtain ⟨h1, h2, _⟩ := ccChk_facts hc hw
  have e1 : spOf t.text = t.text.take (if mach then 4 else 5) := by
    unfold spOf; cases mach
    · rw [if_neg (fun h => absurd (h1.1 h) (by decide))]; rfl
    · rw [if_pos (h1.2 rfl)]; rfl
  have e2 : restOf t.text = t.text.drop (if mach then 4 else 5) := by
    unfold restOf; cases mach
    · rw [if_neg (fun h => absurd (h1.1 h) (by decide))]; rfl
    · rw [if_pos (h1.2 rfl)]; rfl
  refine ⟨e1, ?_, ?_, ?_⟩
  · unfold lv1Of lvLen; rw [h2, e2]
  · unfold tailOf lvLen; rw [h2, e2]
  · unfold ccExact; rw [h2]
    cases mach
    · have : t.text.take 1 ≠ ['M'] := fun h => absurd (h1.1 h) (by decide)
      simp [this]
    · simp [h1.2 rfl]

/-- What the levels methods do after the assignment. -/
def levelsK (call : Call → ML F Unit) (a : Act) (e : Ers F) (ts : List Token) : Res F :=
  match ts with
  | [] => done (a.run e) []
  | nt :: ts => call (.postPoint nt) ⟨a.run e, ts⟩

theorem step_levels (t : Token) (ht : Typed t) (hb : t.base = .SPEED_ALTITUDE_ALTITUDE) (hbad : t.sub ∉ ccBad)
    (e : Ers F) (ts : List Token) (he : e.recs ≠ []) :
    step call (.assignSpeedAltitudeAltitude t) ⟨e, ts⟩ = levelsK call (.levels t) e ts := by
  have hm : t.sub ∈ ccA ++ ccBad ++ ccB ++ ccC ++ ccD := typed_in ht _ hb _ (by decide) (by decide +kernel)
  obtain ⟨hsp, hl1, _, hl2, _⟩ := levels_facts ht hb hbad
  have key : ∀ lv lv2 sp, lv = lv1Of t.text → lv2 = lv2Of t.text → sp = spOf t.text →
      (levelLevelSpeed t lv lv2 sp >>= fun _ => rulesThenPostPoint call) ⟨e, ts⟩ = levelsK call (.levels t) e ts := by
    rintro _ _ _ rfl rfl rfl
    have h1 := does_levelLevelSpeed (F := F) t _ _ _ (unit1_level hl1) hl2 (unit1_speed hsp)
    rw [bd h1 he, rulesThen call t _ _ (upd_ne h1.ne he), upd_upd, List.append_nil]
    have : (mapHead toIfr ∘ mapHead (setSpeed (spOf t.text) ∘ setCruise (lv2Of t.text) ∘ setLevel (lv1Of t.text)) :
        List (Record F) → List (Record F)) = (Act.levels t).recs := funext fun l => mapHead_mapHead _ _ l
    rw [this]
    rfl
  show (lastElement >>= _) _ = _
  rw [bind_last, head?_some he]
  have a1 : slice t.text 0 4 = t.text.take 4 := slice_nat t.text 0 4
  have a2 : slice t.text 0 5 = t.text.take 5 := slice_nat t.text 0 5
  have b1 : slice t.text 5 9 = (t.text.drop 5).take 4 := (slice_nat t.text 5 9).trans List.drop_take
  have b2 : slice t.text 5 10 = (t.text.drop 5).take 5 := (slice_nat t.text 5 10).trans List.drop_take
  have b3 : slice t.text 4 8 = (t.text.drop 4).take 4 := (slice_nat t.text 4 8).trans List.drop_take
  have b4 : slice t.text 4 9 = (t.text.drop 4).take 5 := (slice_nat t.text 4 9).trans List.drop_take
  have c1 : sliceFrom t.text 9 = t.text.drop 9 := sliceFrom_nat t.text 9
  have c2 : sliceFrom t.text 11 = t.text.drop 11 := sliceFrom_nat t.text 11
  have c3 : sliceFrom t.text 10 = t.text.drop 10 := sliceFrom_nat t.text 10
  dsimp only
  rw [a1, a2, b1, b2, b3, b4, c1, c2, c3]
  simp only [List.mem_append] at hm
  rcases hm with (((h | h) | h) | h) | h
  · obtain ⟨s1, s2, s3, s4⟩ := cc_split ht false true _ h (by decide +kernel) (by decide)
    have k := key ((t.text.drop 5).take 4) (t.text.drop 9) (t.text.take 5) s2.symm
      (by unfold lv2Of; rw [s4, s3]; simp) s1.symm
    simp only [ccA, List.mem_cons, List.not_mem_nil, or_false] at h
    rcases h with h | h | h | h | h | h | h | h | h | h | h | h | h | h <;> rw [h] <;> exact k
  · exact absurd h hbad
  · obtain ⟨s1, s2, s3, s4⟩ := cc_split ht false false _ h (by decide +kernel) (by decide)
    have k := key ((t.text.drop 5).take 5) (t.text.drop 11) (t.text.take 5) s2.symm
      (by unfold lv2Of; rw [s4, s3]; simp) s1.symm
    simp only [ccB, List.mem_cons, List.not_mem_nil, or_false] at h
    rcases h with h | h | h | h | h | h | h | h | h | h | h | h | h | h | h | h <;> rw [h] <;> exact k
  · obtain ⟨s1, s2, s3, s4⟩ := cc_split ht true true _ h (by decide +kernel) (by decide)
    have k := key ((t.text.drop 4).take 4) (t.text.drop 9) (t.text.take 4) s2.symm
      (by unfold lv2Of; rw [s4, s3]; simp) s1.symm
    simp only [ccC, List.mem_cons, List.not_mem_nil, or_false] at h
    rcases h with h | h | h | h | h | h | h | h <;> rw [h] <;> exact k
  · obtain ⟨s1, s2, s3, s4⟩ := cc_split ht true false _ h (by decide +kernel) (by decide)
    have k := key ((t.text.drop 4).take 5) (t.text.drop 10) (t.text.take 4) s2.symm
      (by unfold lv2Of; rw [s4, s3]; simp) s1.symm
    simp only [ccD, List.mem_cons, List.not_mem_nil, or_false] at h
    rcases h with h | h | h | h | h | h | h | h <;> rw [h] <;> exact k

theorem plus_split {t : Token} (ht : Typed t) (mach fa : Bool) (subs : List SubType) (hs : t.sub ∈ subs)
    (hk : (table.all fun r => !(subs.contains r.sub) || r.words.all (plusChk mach fa)) = true)
    (hu : subs.contains .UNKNOWN = false) :
    spOf t.text = t.text.take (if mach then 4 else 5) ∧
    lv1Of t.text = (t.text.drop (if mach then 4 else 5)).take (if fa then 4 else 5) ∧
    (t.text.drop (if mach then 4 else 5)).drop (if fa then 4 else 5) = py! "PLUS" ∧
    Speed (spOf t.text) ∧ Level (lv1Of t.text) ∧ tailOf t.text = py! "PLUS" ∧
    t.text = spOf t.text ++ (lv1Of t.text ++ tailOf t.text) := by
  obtain ⟨w, hc, hw⟩ := plus_word ht mach fa subs hs hk hu
  obtain ⟨h1, h2, h3, h4, h5, h6⟩ := plusChk_facts hc hw
  have e1 : spOf t.text = t.text.take (if mach then 4 else 5) := by
    unfold spOf; cases mach
    · rw [if_neg (fun h => absurd (h1.1 h) (by decide))]; rfl
    · rw [if_pos (h1.2 rfl)]; rfl
  have e2 : restOf t.text = t.text.drop (if mach then 4 else 5) := by
    unfold restOf; cases mach
    · rw [if_neg (fun h => absurd (h1.1 h) (by decide))]; rfl
    · rw [if_pos (h1.2 rfl)]; rfl
  refine ⟨e1, ?_, ?_, h3, h4, h5, h6⟩
  · unfold lv1Of lvLen; rw [h2, e2]
  · unfold tailOf lvLen at h5; rwa [h2, e2] at h5

theorem plus_in {t : Token} (ht : Typed t) (hb : t.base = .SPEED_ALTITUDE_PLUS) :
    t.sub ∈ plusA ∨ t.sub ∈ plusB ∨ t.sub ∈ plusC ∨ t.sub ∈ plusD := by
  have hm : t.sub ∈ plusA ++ plusB ++ plusC ++ plusD := typed_in ht _ hb _ (by decide) (by decide +kernel)
  simp only [List.mem_append] at hm
  rcases hm with ((h | h) | h) | h
  · exact .inl h
  · exact .inr (.inl h)
  · exact .inr (.inr (.inl h))
  · exact .inr (.inr (.inr h))

theorem plus_facts {t : Token} (ht : Typed t) (hb : t.base = .SPEED_ALTITUDE_PLUS) :
    Speed (spOf t.text) ∧ Level (lv1Of t.text) ∧ tailOf t.text = py! "PLUS" ∧
    t.text = spOf t.text ++ (lv1Of t.text ++ tailOf t.text) := by
  rcases plus_in ht hb with h | h | h | h
  · exact (plus_split ht false true _ h (by decide +kernel) (by decide)).2.2.2
  · exact (plus_split ht false false _ h (by decide +kernel) (by decide)).2.2.2
  · exact (plus_split ht true true _ h (by decide +kernel) (by decide)).2.2.2
  · exact (plus_split ht true false _ h (by decide +kernel) (by decide)).2.2.2

theorem step_plus (t : Token) (ht : Typed t) (hb : t.base = .SPEED_ALTITUDE_PLUS)
    (e : Ers F) (ts : List Token) (he : e.recs ≠ []) :
    step call (.assignSpeedAltitudePlus t) ⟨e, ts⟩ = levelsK call (.plus t) e ts := by
  obtain ⟨hsp, hl1, _⟩ := plus_facts ht hb
  have key : ∀ lv p sp, lv = lv1Of t.text → p = py! "PLUS" → sp = spOf t.text →
      (levelPlusSpeed t lv p sp >>= fun _ => rulesThenPostPoint call) ⟨e, ts⟩ = levelsK call (.plus t) e ts := by
    rintro _ _ _ rfl rfl rfl
    have h1 := does_levelPlusSpeed (F := F) t (lv1Of t.text) (py! "PLUS") (spOf t.text) (unit1_level hl1) (unit1_speed hsp)
    rw [bd h1 he, rulesThen call t _ _ (upd_ne h1.ne he), upd_upd, List.append_nil]
    have : (mapHead toIfr ∘ mapHead (setSpeed (spOf t.text) ∘ setPlus (py! "PLUS") ∘ setLevel (lv1Of t.text)) :
        List (Record F) → List (Record F)) = (Act.plus t).recs := funext fun l => mapHead_mapHead _ _ l
    rw [this]
    rfl
  show (lastElement >>= _) _ = _
  rw [bind_last, head?_some he]
  have a1 : slice t.text 0 4 = t.text.take 4 := slice_nat t.text 0 4
  have a2 : slice t.text 0 5 = t.text.take 5 := slice_nat t.text 0 5
  have b1 : slice t.text 5 9 = (t.text.drop 5).take 4 := (slice_nat t.text 5 9).trans List.drop_take
  have b2 : slice t.text 5 10 = (t.text.drop 5).take 5 := (slice_nat t.text 5 10).trans List.drop_take
  have b3 : slice t.text 4 8 = (t.text.drop 4).take 4 := (slice_nat t.text 4 8).trans List.drop_take
  have b4 : slice t.text 4 9 = (t.text.drop 4).take 5 := (slice_nat t.text 4 9).trans List.drop_take
  have c1 : sliceFrom t.text 9 = t.text.drop 9 := sliceFrom_nat t.text 9
  have c2 : sliceFrom t.text 8 = t.text.drop 8 := sliceFrom_nat t.text 8
  have c3 : sliceFrom t.text 10 = t.text.drop 10 := sliceFrom_nat t.text 10
  dsimp only
  rw [a1, a2, b1, b2, b3, b4, c1, c2, c3]
  rcases plus_in ht hb with h | h | h | h
  · obtain ⟨s1, s2, s3, _⟩ := plus_split ht false true _ h (by decide +kernel) (by decide)
    have k := key ((t.text.drop 5).take 4) (t.text.drop 9) (t.text.take 5) s2.symm (by simpa using s3) s1.symm
    simp only [plusA, List.mem_cons, List.not_mem_nil, or_false] at h
    rcases h with h | h | h | h <;> rw [h] <;> exact k
  · obtain ⟨s1, s2, s3, _⟩ := plus_split ht false false _ h (by decide +kernel) (by decide)
    have k := key ((t.text.drop 5).take 5) (t.text.drop 10) (t.text.take 5) s2.symm (by simpa using s3) s1.symm
    simp only [plusB, List.mem_cons, List.not_mem_nil, or_false] at h
    rcases h with h | h | h | h <;> rw [h] <;> exact k
  · obtain ⟨s1, s2, s3, _⟩ := plus_split ht true true _ h (by decide +kernel) (by decide)
    have k := key ((t.text.drop 4).take 4) (t.text.drop 8) (t.text.take 4) s2.symm (by simpa using s3) s1.symm
    simp only [plusC, List.mem_cons, List.not_mem_nil, or_false] at h
    rcases h with h | h <;> rw [h] <;> exact k
  · obtain ⟨s1, s2, s3, _⟩ := plus_split ht true false _ h (by decide +kernel) (by decide)
    have k := key ((t.text.drop 4).take 5) (t.text.drop 9) (t.text.take 4) s2.symm (by simpa using s3) s1.symm
    simp only [plusD, List.mem_cons, List.not_mem_nil, or_false] at h
    rcases h with h | h <;> rw [h] <;> exact k

theorem step_vfr (t : Token) (ht : Typed t) (hb : t.base = .SPEED_VFR) (e : Ers F) (ts : List Token)
    (he : e.recs ≠ []) :
    step call (.assignSpeedVfr t) ⟨e, ts⟩ = match ts with
      | [] => done ((Act.vfr t).run e) []
      | nt :: ts => call (.breakTextSave nt) ⟨(Act.vfr t).run e, ts⟩ := by
  obtain ⟨hk, hsp, hrest⟩ := vfr_facts ht hb
  have h1 := does_addRecord (F := F) { t with text := py! "VFR" } t
  have hF : Unit1 (py! "F050") := ⟨'F', ['0', '5', '0'], rfl, by decide, by
    intro c hc; simp only [List.mem_cons, List.not_mem_nil, or_false] at hc
    rcases hc with rfl | rfl | rfl <;> exact ⟨by decide, by decide⟩⟩
  have h2 := does_assignAltitude (F := F) t (py! "F050") hF
  have h3 : Does (F := F) (vfrSpeedRules t) t [] (mapHead (toVfr ∘ setSpeed (spOf t.text))) := by
    have hd := does_assignSpeed (F := F) t (spOf t.text) (unit1_speed hsp)
    have hV : rulesOf (py! "V") = .ok ruleV := rfl
    have hV' : Does (F := F) (liftE (rulesOf (py! "V")) >>= fun x => modLast fun r => r.setRules x) t [] (mapHead toVfr) :=
      Does.lift hV (does_modLast t toVfr)
    unfold vfrSpeedRules
    rcases hk with ⟨hs, hM⟩ | ⟨hs, hM⟩
    · unfold spOf at hd
      unfold restOf at hrest
      rw [if_pos hM] at hd hrest
      have e1 : slice t.text 0 4 = t.text.take 4 := slice_nat t.text 0 4
      have e2 : slice t.text 4 5 = py! "V" := by
        have : slice t.text 4 5 = (t.text.drop 4).take 1 := (slice_nat t.text 4 5).trans List.drop_take
        rw [this, hrest]; rfl
      unfold spOf
      rw [if_pos hM, hs, ← e1]
      dsimp only
      rw [e2]
      rw [← e1] at hd
      exact (hd.bind hV').congr rfl fun l => mapHead_mapHead _ _ l
    · unfold spOf at hd
      unfold restOf at hrest
      rw [if_neg hM] at hd hrest
      have e1 : slice t.text 0 5 = t.text.take 5 := slice_nat t.text 0 5
      have e2 : slice t.text 5 6 = py! "V" := by
        have : slice t.text 5 6 = (t.text.drop 5).take 1 := (slice_nat t.text 5 6).trans List.drop_take
        rw [this, hrest]; rfl
      unfold spOf
      rw [if_neg hM, ← e1]
      rw [← e1] at hd
      rcases hs with hs | hs <;> rw [hs] <;> dsimp only <;> rw [e2] <;>
        exact (hd.bind hV').congr rfl fun l => mapHead_mapHead _ _ l
  obtain ⟨recs, errs, d⟩ := e
  cases recs with
  | nil => exact absurd rfl he
  | cons r rs =>
    show (lastElement >>= _) _ = _
    rw [bind_last]
    dsimp only [List.head?]
    show (addRecord { t with text := py! "VFR" } >>= fun _ => assignAltitude t (py! "F050") false >>= fun _ =>
      vfrSpeedRules t >>= fun _ => getLast >>= _) _ = _
    rw [bd h1 he, bd h2 (upd_ne h1.ne he), bd h3 (upd_ne h2.ne (upd_ne h1.ne he)), upd_upd, upd_upd]
    cases ts <;> rfl

theorem step_ccPoint (t : Token) (ht : Typed t) (e : Ers F) (ts : List Token) (he : e.recs ≠ []) :
    step call (.cruiseClimbPoint t) ⟨e, ts⟩ =
      (let e' := (Act.ccPoint t).run e
       let k : Ers F → List Token → Res F := fun e ts => match ts with
        | [] => call (.addErrorAndReSync t 28) ⟨e, []⟩
        | nt2 :: ts => andThen ((if nt2.base = .SPEED_ALTITUDE_ALTITUDE then call (.assignSpeedAltitudeAltitude nt2)
            else if nt2.base = .SPEED_ALTITUDE_PLUS then call (.assignSpeedAltitudePlus nt2)
            else call (.addErrorAndReSync nt2 29)) ⟨e, ts⟩) (endTail call)
       match ts with
        | [] => call (.addErrorAndReSync t 27) ⟨e', []⟩
        | nt :: ts => if nt.base ≠ .SLASH then andThen (call (.addErrorAndReSync nt 26) ⟨e', ts⟩) k else k e' ts) := by
  have h1 := does_addRecord (F := F) t t
  have h2 := does_position (F := F) t ht
  have hr : upd t (posNums t) (posRecs t) (upd t [] (pushRec t) e) = (Act.ccPoint t).run e := by
    simp only [upd_upd]; rfl
  show (addRecord t >>= fun _ => assignLatLongBearingDistance t >>= fun _ => nextToken >>= _) _ = _
  rw [bd h1 he, bd h2 (upd_ne h1.ne he), hr]
  have ee : ∀ m : ML F Unit, ∀ s, (m >>= fun _ => nextToken >>= fun x => match x with
      | none => pure ()
      | some nt3 => call (.point nt3)) s = andThen (m s) (endTail call) := by
    intro m s
    rw [bind_call]
    exact andThen_congr (fun e ts => by cases ts <;> rfl)
  have kk : ∀ (e : Ers F) (ts : List Token), (nextToken >>= fun x => match x with
    | none => call (.addErrorAndReSync t 28)
    | some nt2 => if nt2.base = .SPEED_ALTITUDE_ALTITUDE then (call (.assignSpeedAltitudeAltitude nt2)
          >>= fun _ => nextToken >>= fun x => match x with
          | none => pure ()
          | some nt3 => call (.point nt3))
        else if nt2.base = .SPEED_ALTITUDE_PLUS then (call (.assignSpeedAltitudePlus nt2)
          >>= fun _ => nextToken >>= fun x => match x with
          | none => pure ()
          | some nt3 => call (.point nt3))
        else (call (.addErrorAndReSync nt2 29) >>= fun _ => nextToken >>= fun x => match x with
          | none => pure ()
          | some nt3 => call (.point nt3))) ⟨e, ts⟩ = match ts with
        | [] => call (.addErrorAndReSync t 28) ⟨e, []⟩
        | nt2 :: ts => andThen ((if nt2.base = .SPEED_ALTITUDE_ALTITUDE then call (.assignSpeedAltitudeAltitude nt2)
            else if nt2.base = .SPEED_ALTITUDE_PLUS then call (.assignSpeedAltitudePlus nt2)
            else call (.addErrorAndReSync nt2 29)) ⟨e, ts⟩) (endTail call) := by
    intro e ts
    cases ts with
    | nil => rfl
    | cons nt2 ts =>
      rw [bind_cons]
      dsimp only
      split
      · exact ee _ _
      · split
        · exact ee _ _
        · exact ee _ _
  cases ts with
  | nil => rfl
  | cons nt ts =>
    rw [bind_cons]
    dsimp only
    by_cases hb : nt.base ≠ .SLASH
    · rw [if_pos hb, show decide (nt.base ≠ .SLASH) = true from decide_eq_true hb]
      show (call (.addErrorAndReSync nt 26) >>= _) _ = _
      rw [bind_call]
      exact andThen_congr kk
    · rw [if_neg hb, show decide (nt.base ≠ .SLASH) = false from decide_eq_false hb]
      exact kk _ _

theorem step_vToI (p sl sp : Token) (hp : Typed p) (e : Ers F) (ts : List Token) (he : e.recs ≠ []) :
    step call .vToI ⟨e, p :: sl :: sp :: ts⟩ = call (.assignSpeedAltitude sp) ⟨(Act.vToI p).run e, ts⟩ := by
  have h1 := does_addRecord (F := F) p p
  have h2 := does_checkPosition (F := F) p hp
  have h3 := does_modLast (F := F) p toIfr
  have hr : upd p [] (mapHead toIfr) (upd p (posNums p) (posRecs p) (upd p [] (pushRec p) e)) = (Act.vToI p).run e := by
    simp only [upd_upd, List.append_nil, List.nil_append]; rfl
  show (addRecord p >>= fun _ => checkPosition p >>= fun _ => modLast toIfr >>= fun _ => _) _ = _
  rw [bd h1 he, bd h2 (upd_ne h1.ne he), bd h3 (upd_ne h2.ne (upd_ne h1.ne he)), hr]
  rfl

theorem step_vToIToV (p sl sp : Token) (e : Ers F) (ts : List Token) (he : e.recs ≠ []) :
    step call .vToIToV ⟨e, p :: sl :: sp :: ts⟩ = call (.assignSpeedVfr sp) ⟨(Act.vToIToV p).run e, ts⟩ := by
  have h1 := does_addRecord (F := F) p p
  have h3 := does_modLast (F := F) p toIfr
  have hr : upd p [] (mapHead toIfr) (upd p [] (pushRec p) e) = (Act.vToIToV p).run e := by
    simp only [upd_upd]; rfl
  show (addRecord p >>= fun _ => modLast toIfr >>= fun _ => _) _ = _
  rw [bd h1 he, bd h3 (upd_ne h1.ne he), hr]
  rfl

end F15
