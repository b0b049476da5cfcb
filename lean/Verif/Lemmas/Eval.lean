import Verif.Lemmas.Acts
/-!
# Actions and evaluation equations of the methods
-/

namespace F15
open Spec

set_option linter.unusedSectionVars false
variable {F : Type} [PyFloat F]

/-! ### Splitting speed/level texts -/

/-- The speed at the start of a SPEED/… text: 4 characters for Mach, 5 otherwise. -/
def spOf (s : Str) : Str := if s.take 1 = ['M'] then s.take 4 else s.take 5
/-- What follows the speed. -/
def restOf (s : Str) : Str := if s.take 1 = ['M'] then s.drop 4 else s.drop 5
/-- Does a level start with `F` or `A`? -/
def isFA (r : Str) : Bool := r.take 1 = ['F'] || r.take 1 = ['A']
/-- Length of the level at the start of `r`. -/
def lvLen (r : Str) : Nat := if isFA r then 4 else 5
/-- The first level of a cruise climb text. -/
def lv1Of (s : Str) : Str := (restOf s).take (lvLen (restOf s))
/-- What follows the first level. -/
def tailOf (s : Str) : Str := (restOf s).drop (lvLen (restOf s))
/-- Whether the code slices the second level correctly. -/
def ccExact (s : Str) : Bool := decide (s.take 1 ≠ ['M']) && isFA (restOf s)
/-- The text the code takes as the second level: one character too short unless `ccExact`. -/
def lv2Of (s : Str) : Str := if ccExact s then tailOf s else (tailOf s).drop 1

/-! ### Actions -/

/-- The actions on the ERS. -/
inductive Act
  /-- add an error message -/
  | err (t : Token) (n : Nat)
  /-- `point` -/
  | point (t : Token)
  /-- the point of a VFR to IFR change -/
  | vToI (t : Token)
  /-- the point of a VFR to IFR to VFR change -/
  | vToIToV (t : Token)
  | route (t : Token)
  /-- an element without further attributes (DCT, C, misplaced SID or STAR) -/
  | plain (t : Token)
  /-- VFR, OAT, IFPSTOP -/
  | brk (t : Token)
  | sid (t : Token)
  | star (t : Token)
  /-- the point of a cruise climb -/
  | ccPoint (t : Token)
  /-- SPEED/VFR -/
  | vfr (t : Token)
  /-- SPEED/LEVEL -/
  | level (t : Token)
  /-- SPEED/LEVEL/LEVEL -/
  | levels (t : Token)
  /-- SPEED/LEVEL/PLUS -/
  | plus (t : Token)
  /-- break text -/
  | text (t : Token)
  /-- stay time -/
  | stay (t : Token)
deriving DecidableEq

/-- The token of an action. -/
def Act.tok : Act → Token
  | .err t _ | .point t | .vToI t | .vToIToV t | .route t | .plain t | .brk t | .sid t | .star t
  | .ccPoint t | .vfr t | .level t | .levels t | .plus t | .text t | .stay t => t

/-- The messages an action adds. -/
def Act.nums : Act → List Nat
  | .err _ n => [n]
  | .point t | .vToI t | .ccPoint t => posNums t
  | .level t => granErr (restOf t.text)
  | .levels t => granErr (lv1Of t.text) ++ granErr (lv2Of t.text)
  | .plus t => granErr (lv1Of t.text)
  | _ => []

/-- Rule set by `break_start`. -/
def brkRules (u : SubType) (r : Record F) : Record F :=
  match u with
  | .OAT => r.setRules ruleO
  | .VFR => r.setRules ruleV
  | .IFPSTOP => r.setRules ruleS
  | _ => r

def toIfr (r : Record F) : Record F := r.setRules ruleI
def toVfr (r : Record F) : Record F := r.setRules ruleV
def asSid (s : Str) (r : Record F) : Record F :=
  { r with base := .SID, sub := if s = py! "SID" then .SID_LITERAL else .SID }
def asStar (s : Str) (r : Record F) : Record F :=
  { r with base := .STAR, sub := if s = py! "STAR" then .STAR_LITERAL else .STAR }
def setPlus (s : Str) (r : Record F) : Record F := { r with cruiseTo := s }
/-- Minutes of `HHMM`. -/
def stayVal (s : Str) : Int := (numVal (s.take 2) * 60 + numVal (s.drop 2) : Nat)
def setStay (s : Str) (r : Record F) : Record F := { r with stayTime := stayVal s }
/-- Copy speed and level of the newest element to the one before. -/
def copyPrev : List (Record F) → List (Record F)
  | v :: p :: rs => v :: { p with speed := v.speed, speedSi := v.speedSi,
                                  altitude := v.altitude, altitudeSi := v.altitudeSi } :: rs
  | l => l

/-- The effect of an action on the elements (newest first). -/
def Act.recs : Act → List (Record F) → List (Record F)
  | .err _ _, l => l
  | .point t, l => posRecs t (mapHead toIfr (pushRec t l))
  | .vToI t, l => mapHead toIfr (posRecs t (pushRec t l))
  | .vToIToV t, l => mapHead toIfr (pushRec t l)
  | .route t, l => mapHead toIfr (pushRec t l)
  | .plain t, l => pushRec t l
  | .brk t, l => mapHead (brkRules t.sub) (pushRec t l)
  | .sid t, l => mapHead (asSid t.text) (pushRec t l)
  | .star t, l => mapHead (asStar t.text) (pushRec t l)
  | .ccPoint t, l => posRecs t (pushRec t l)
  | .vfr t, l => copyPrev (mapHead (toVfr ∘ setSpeed (spOf t.text) ∘ setLevel (py! "F050"))
      (pushRec { t with text := py! "VFR" } l))
  | .level t, l => mapHead (toIfr ∘ setSpeed (spOf t.text) ∘ setLevel (restOf t.text)) l
  | .levels t, l => mapHead (toIfr ∘ setSpeed (spOf t.text) ∘ setCruise (lv2Of t.text) ∘ setLevel (lv1Of t.text)) l
  | .plus t, l => mapHead (toIfr ∘ setSpeed (spOf t.text) ∘ setPlus (py! "PLUS") ∘ setLevel (lv1Of t.text)) l
  | .text t, l => mapHead (fun r => r.appendBreakText t.text) l
  | .stay t, l => mapHead (setStay t.text) l

/-- The effect of an action on the ERS. -/
def Act.run (a : Act) (e : Ers F) : Ers F := upd a.tok a.nums a.recs e

theorem posRecs_ne (t : Token) (l : List (Record F)) (h : l ≠ []) : posRecs t l ≠ [] := by
  unfold posRecs
  split
  · exact azimuthList_ne _ (mapHead_ne _ _ h)
  · exact azimuthList_ne _ (mapHead_ne _ _ h)
  · exact azimuthList_ne _ (mapHead_ne _ _ (azimuthList_ne _ (mapHead_ne _ _ h)))
  · exact azimuthList_ne _ (mapHead_ne _ _ (azimuthList_ne _ (mapHead_ne _ _ h)))
  · exact h

theorem pushRec_ne (t : Token) (l : List (Record F)) (h : l ≠ []) : pushRec t l ≠ [] :=
  (does_addRecord t t).ne l h

theorem copyPrev_ne (l : List (Record F)) (h : l ≠ []) : copyPrev l ≠ [] := by
  unfold copyPrev; split
  · simp
  · exact h

theorem Act.recs_ne (a : Act) (l : List (Record F)) (h : l ≠ []) : a.recs l ≠ [] := by
  cases a <;> simp only [Act.recs] <;>
    first
    | exact h
    | exact posRecs_ne _ _ (mapHead_ne _ _ (pushRec_ne _ _ h))
    | exact mapHead_ne _ _ (posRecs_ne _ _ (pushRec_ne _ _ h))
    | exact mapHead_ne _ _ (pushRec_ne _ _ h)
    | exact pushRec_ne _ _ h
    | exact posRecs_ne _ _ (pushRec_ne _ _ h)
    | exact copyPrev_ne _ (mapHead_ne _ _ (pushRec_ne _ _ h))
    | exact mapHead_ne _ _ h

theorem Act.run_ne (a : Act) (e : Ers F) (h : e.recs ≠ []) : (a.run e).recs ≠ [] := a.recs_ne _ h

/-! ### Facts about typed tokens -/

theorem take1_of_wm {w : List Cls} {s : Str} (hs : wm w s = true) (c : Char) (h : w.take 1 = [kC c]) :
    s.take 1 = [c] := by
  have := wm_take hs 1
  rw [h] at this
  exact (lit_iff [c] _).1 this

theorem contains_speed {w : List Cls} {s : Str} (h : speedW.contains w = true) (hs : wm w s = true) : Speed s :=
  (speed_iff s).2 ⟨w, by simpa using h, hs⟩
theorem contains_level {w : List Cls} {s : Str} (h : levelW.contains w = true) (hs : wm w s = true) : Level s :=
  (level_iff s).2 ⟨w, by simpa using h, hs⟩

/-- Subtypes with a Mach speed. -/
def machSA : List SubType := [.SPEED_ALTITUDE_MF, .SPEED_ALTITUDE_MS, .SPEED_ALTITUDE_MA, .SPEED_ALTITUDE_MM]
def otherSA : List SubType := [.SPEED_ALTITUDE_KS, .SPEED_ALTITUDE_KA, .SPEED_ALTITUDE_KM, .SPEED_ALTITUDE_NS,
  .SPEED_ALTITUDE_NA, .SPEED_ALTITUDE_NM, .SPEED_ALTITUDE_KF, .SPEED_ALTITUDE_NF]

theorem typed_in {t : Token} (ht : Typed t) (b : BaseType) (hb : t.base = b) (subs : List SubType)
    (hn : b ≠ .UNKNOWN ∧ b ≠ .TOO_LONG)
    (hk : (table.all fun r => decide (r.base ≠ b) || subs.contains r.sub) = true) : t.sub ∈ subs := by
  rcases typed_pair ht with ⟨h1, _⟩ | ⟨h1, _⟩ | ⟨r, hr, h1, h2⟩
  · exact absurd (hb.symm.trans h1) hn.1
  · exact absurd (hb.symm.trans h1) hn.2
  · have := List.all_eq_true.1 hk r hr
    rw [Bool.or_eq_true] at this
    rcases this with h | h
    · have h : r.base ≠ b := by simpa using h
      exact absurd (h1.symm.trans hb) h
    · rw [h2]; simpa using h

theorem level_mach {t : Token} (ht : Typed t) (hs : t.sub ∈ machSA) :
    t.text.take 1 = ['M'] ∧ Speed (t.text.take 4) ∧ Level (t.text.drop 4) := by
  obtain ⟨w, hc, hw⟩ := typed_word ht (fun _ u => machSA.contains u)
    (fun w => decide (w.take 1 = [kC 'M']) && speedW.contains (w.take 4) && levelW.contains (w.drop 4))
    (by decide +kernel) (by simpa using hs) (by decide) (by decide)
  simp only [Bool.and_eq_true, decide_eq_true_eq] at hc
  exact ⟨take1_of_wm hw _ hc.1.1, contains_speed hc.1.2 (wm_take hw 4), contains_level hc.2 (wm_drop hw 4)⟩

theorem take1_ne_M {w : List Cls} {s : Str} (hs : wm w s = true)
    (h : w.take 1 = [kC 'K'] ∨ w.take 1 = [kC 'N']) : s.take 1 ≠ ['M'] := by
  rcases h with h | h
  · rw [take1_of_wm hs _ h]; decide
  · rw [take1_of_wm hs _ h]; decide

theorem level_other {t : Token} (ht : Typed t) (hs : t.sub ∈ otherSA) :
    t.text.take 1 ≠ ['M'] ∧ Speed (t.text.take 5) ∧ Level (t.text.drop 5) := by
  obtain ⟨w, hc, hw⟩ := typed_word ht (fun _ u => otherSA.contains u)
    (fun w => decide (w.take 1 = [kC 'K'] ∨ w.take 1 = [kC 'N']) && speedW.contains (w.take 5) &&
      levelW.contains (w.drop 5))
    (by decide +kernel) (by simpa using hs) (by decide) (by decide)
  simp only [Bool.and_eq_true, decide_eq_true_eq] at hc
  exact ⟨take1_ne_M hw hc.1.1, contains_speed hc.1.2 (wm_take hw 5), contains_level hc.2 (wm_drop hw 5)⟩

theorem level_facts {t : Token} (ht : Typed t) (hb : t.base = .SPEED_ALTITUDE) :
    Speed (spOf t.text) ∧ Level (restOf t.text) ∧ t.text = spOf t.text ++ restOf t.text := by
  have : t.sub ∈ machSA ++ otherSA := typed_in ht _ hb _ (by decide) (by decide +kernel)
  unfold spOf restOf
  rcases List.mem_append.1 this with h | h
  · obtain ⟨h1, h2, h3⟩ := level_mach ht h
    rw [if_pos h1, if_pos h1]; exact ⟨h2, h3, (List.take_append_drop _ _).symm⟩
  · obtain ⟨h1, h2, h3⟩ := level_other ht h
    rw [if_neg h1, if_neg h1]; exact ⟨h2, h3, (List.take_append_drop _ _).symm⟩

/-- The four groups of subtypes of `assign_speed_altitude_altitude`, without the two that raise. -/
def ccA : List SubType := [.SPEED_ALTITUDE_KFF, .SPEED_ALTITUDE_KFS, .SPEED_ALTITUDE_KFA, .SPEED_ALTITUDE_KFM,
  .SPEED_ALTITUDE_KAF, .SPEED_ALTITUDE_KAS, .SPEED_ALTITUDE_KAA, .SPEED_ALTITUDE_KAM,
  .SPEED_ALTITUDE_NFF, .SPEED_ALTITUDE_NFS, .SPEED_ALTITUDE_NFA, .SPEED_ALTITUDE_NFM,
  .SPEED_ALTITUDE_NAF, .SPEED_ALTITUDE_NAA]
def ccBad : List SubType := [.SPEED_ALTITUDE_NAS, .SPEED_ALTITUDE_NAM]
def ccB : List SubType := [.SPEED_ALTITUDE_KSF, .SPEED_ALTITUDE_KSS, .SPEED_ALTITUDE_KSA, .SPEED_ALTITUDE_KSM,
  .SPEED_ALTITUDE_KMF, .SPEED_ALTITUDE_KMS, .SPEED_ALTITUDE_KMA, .SPEED_ALTITUDE_KMM,
  .SPEED_ALTITUDE_NSF, .SPEED_ALTITUDE_NSS, .SPEED_ALTITUDE_NSA, .SPEED_ALTITUDE_NSM,
  .SPEED_ALTITUDE_NMF, .SPEED_ALTITUDE_NMS, .SPEED_ALTITUDE_NMA, .SPEED_ALTITUDE_NMM]
def ccC : List SubType := [.SPEED_ALTITUDE_MFF, .SPEED_ALTITUDE_MFS, .SPEED_ALTITUDE_MFA, .SPEED_ALTITUDE_MFM,
  .SPEED_ALTITUDE_MAF, .SPEED_ALTITUDE_MAS, .SPEED_ALTITUDE_MAA, .SPEED_ALTITUDE_MAM]
def ccD : List SubType := [.SPEED_ALTITUDE_MSF, .SPEED_ALTITUDE_MSS, .SPEED_ALTITUDE_MSA, .SPEED_ALTITUDE_MSM,
  .SPEED_ALTITUDE_MMF, .SPEED_ALTITUDE_MMS, .SPEED_ALTITUDE_MMA, .SPEED_ALTITUDE_MMM]

/-- Word test: speed `n` long with (or without) Mach, then a level of length `m` with F/A or not, then a level. -/
def ccChk (mach fa : Bool) (w : List Cls) : Bool :=
  let n := if mach then 4 else 5
  let m := if fa then 4 else 5
  (if mach then decide (w.take 1 = [kC 'M']) else decide (w.take 1 = [kC 'K'] ∨ w.take 1 = [kC 'N'])) &&
  (if fa then decide ((w.drop n).take 1 = [kC 'F'] ∨ (w.drop n).take 1 = [kC 'A'])
    else decide ((w.drop n).take 1 = [kC 'S'] ∨ (w.drop n).take 1 = [kC 'M'])) &&
  speedW.contains (w.take n) && levelW.contains ((w.drop n).take m) && levelW.contains ((w.drop n).drop m)

theorem ccChk_facts {mach fa : Bool} {w : List Cls} {s : Str} (h : ccChk mach fa w = true) (hs : wm w s = true) :
    (s.take 1 = ['M'] ↔ mach = true) ∧ isFA (restOf s) = fa ∧ Speed (spOf s) ∧ Level (lv1Of s) ∧ Level (tailOf s) ∧
      s = spOf s ++ (lv1Of s ++ tailOf s) := by
  unfold ccChk at h
  simp only [Bool.and_eq_true] at h
  obtain ⟨⟨⟨⟨h1, h2⟩, h3⟩, h4⟩, h5⟩ := h
  have hM : s.take 1 = ['M'] ↔ mach = true := by
    cases mach
    · simp only [Bool.false_eq_true, if_false, decide_eq_true_eq] at h1
      exact ⟨fun h => absurd h (take1_ne_M hs h1), fun h => absurd h (by decide)⟩
    · simp only [if_true, decide_eq_true_eq] at h1
      exact ⟨fun _ => rfl, fun _ => take1_of_wm hs _ h1⟩
  have hsp : spOf s = s.take (if mach then 4 else 5) := by
    unfold spOf
    cases mach
    · rw [if_neg (fun h => absurd (hM.1 h) (by decide))]; rfl
    · rw [if_pos (hM.2 rfl)]; rfl
  have hre : restOf s = s.drop (if mach then 4 else 5) := by
    unfold restOf
    cases mach
    · rw [if_neg (fun h => absurd (hM.1 h) (by decide))]; rfl
    · rw [if_pos (hM.2 rfl)]; rfl
  have hwr := wm_drop hs (if mach then 4 else 5)
  have hFA : isFA (restOf s) = fa := by
    unfold isFA
    rw [hre]
    cases fa
    · simp only [Bool.false_eq_true, if_false, decide_eq_true_eq] at h2
      rcases h2 with h2 | h2
      · rw [take1_of_wm hwr _ h2]; decide
      · rw [take1_of_wm hwr _ h2]; decide
    · simp only [if_true, decide_eq_true_eq] at h2
      rcases h2 with h2 | h2
      · rw [take1_of_wm hwr _ h2]; decide
      · rw [take1_of_wm hwr _ h2]; decide
  have hlen : lvLen (restOf s) = if fa then 4 else 5 := by unfold lvLen; rw [hFA]
  refine ⟨hM, hFA, ?_, ?_, ?_, ?_⟩
  · rw [hsp]; exact contains_speed h3 (wm_take hs _)
  · unfold lv1Of; rw [hlen, hre]; exact contains_level h4 (wm_take hwr _)
  · unfold tailOf; rw [hlen, hre]; exact contains_level h5 (wm_drop hwr _)
  · unfold lv1Of tailOf; rw [List.take_append_drop, hre, hsp, List.take_append_drop]

theorem cc_word {t : Token} (ht : Typed t) (mach fa : Bool) (subs : List SubType) (hs : t.sub ∈ subs)
    (hk : (table.all fun r => !(subs.contains r.sub) || r.words.all (ccChk mach fa)) = true)
    (hu : subs.contains .UNKNOWN = false) :
    ∃ w, ccChk mach fa w = true ∧ wm w t.text = true :=
  typed_word ht (fun _ u => subs.contains u) (ccChk mach fa) hk (by simpa using hs) hu hu

theorem level_unit_drop {s : Str} (h : Level s) : Unit1 (s.drop 1) := by
  have key : ∀ (n : Nat) (d : Str), 2 ≤ n → d.length = n → (∀ c ∈ d, Digit c) → Unit1 d := by
    intro n d hn hl hd
    match d, hl with
    | [], h => simp at h; omega
    | [a], h => simp at h; omega
    | a :: b :: r, _ => exact ⟨a, b :: r, rfl, by simp, fun c hc => hd c (by simp [hc])⟩
  rcases h with ⟨u, d, _, rfl, hl, hd⟩ | ⟨u, d, _, rfl, hl, hd⟩
  · exact key 3 d (by decide) hl hd
  · exact key 4 d (by decide) hl hd

/-- Facts about a SPEED/LEVEL/LEVEL token other than the malformed N-A-S, N-A-M ones. -/
theorem levels_facts {t : Token} (ht : Typed t) (hb : t.base = .SPEED_ALTITUDE_ALTITUDE) (hbad : t.sub ∉ ccBad) :
    Speed (spOf t.text) ∧ Level (lv1Of t.text) ∧ Level (tailOf t.text) ∧ Unit1 (lv2Of t.text) ∧
      t.text = spOf t.text ++ (lv1Of t.text ++ tailOf t.text) := by
  have hm : t.sub ∈ ccA ++ ccBad ++ ccB ++ ccC ++ ccD := typed_in ht _ hb _ (by decide) (by decide +kernel)
  have : ∃ mach fa w, ccChk mach fa w = true ∧ wm w t.text = true := by
    simp only [List.mem_append] at hm
    rcases hm with (((h | h) | h) | h) | h
    · exact ⟨false, true, cc_word ht _ _ _ h (by decide +kernel) (by decide)⟩
    · exact absurd h hbad
    · exact ⟨false, false, cc_word ht _ _ _ h (by decide +kernel) (by decide)⟩
    · exact ⟨true, true, cc_word ht _ _ _ h (by decide +kernel) (by decide)⟩
    · exact ⟨true, false, cc_word ht _ _ _ h (by decide +kernel) (by decide)⟩
  obtain ⟨mach, fa, w, hc, hw⟩ := this
  obtain ⟨_, _, h1, h2, h3, h4⟩ := ccChk_facts hc hw
  refine ⟨h1, h2, h3, ?_, h4⟩
  unfold lv2Of
  split
  · exact unit1_level h3
  · exact level_unit_drop h3

def plusA : List SubType := [.SPEED_ALTITUDE_KF_P, .SPEED_ALTITUDE_KA_P, .SPEED_ALTITUDE_NF_P, .SPEED_ALTITUDE_NA_P]
def plusB : List SubType := [.SPEED_ALTITUDE_KS_P, .SPEED_ALTITUDE_KM_P, .SPEED_ALTITUDE_NS_P, .SPEED_ALTITUDE_NM_P]
def plusC : List SubType := [.SPEED_ALTITUDE_MF_P, .SPEED_ALTITUDE_MA_P]
def plusD : List SubType := [.SPEED_ALTITUDE_MS_P, .SPEED_ALTITUDE_MM_P]

/-- As `ccChk`, ending in `PLUS`. -/
def plusChk (mach fa : Bool) (w : List Cls) : Bool :=
  let n := if mach then 4 else 5
  let m := if fa then 4 else 5
  (if mach then decide (w.take 1 = [kC 'M']) else decide (w.take 1 = [kC 'K'] ∨ w.take 1 = [kC 'N'])) &&
  (if fa then decide ((w.drop n).take 1 = [kC 'F'] ∨ (w.drop n).take 1 = [kC 'A'])
    else decide ((w.drop n).take 1 = [kC 'S'] ∨ (w.drop n).take 1 = [kC 'M'])) &&
  speedW.contains (w.take n) && levelW.contains ((w.drop n).take m) &&
    decide ((w.drop n).drop m = litW (py! "PLUS"))

theorem plusChk_facts {mach fa : Bool} {w : List Cls} {s : Str} (h : plusChk mach fa w = true) (hs : wm w s = true) :
    (s.take 1 = ['M'] ↔ mach = true) ∧ isFA (restOf s) = fa ∧ Speed (spOf s) ∧ Level (lv1Of s) ∧
      tailOf s = py! "PLUS" ∧ s = spOf s ++ (lv1Of s ++ tailOf s) := by
  unfold plusChk at h
  simp only [Bool.and_eq_true] at h
  obtain ⟨⟨⟨⟨h1, h2⟩, h3⟩, h4⟩, h5⟩ := h
  have hM : s.take 1 = ['M'] ↔ mach = true := by
    cases mach
    · simp only [Bool.false_eq_true, if_false, decide_eq_true_eq] at h1
      exact ⟨fun h => absurd h (take1_ne_M hs h1), fun h => absurd h (by decide)⟩
    · simp only [if_true, decide_eq_true_eq] at h1
      exact ⟨fun _ => rfl, fun _ => take1_of_wm hs _ h1⟩
  have hsp : spOf s = s.take (if mach then 4 else 5) := by
    unfold spOf
    cases mach
    · rw [if_neg (fun h => absurd (hM.1 h) (by decide))]; rfl
    · rw [if_pos (hM.2 rfl)]; rfl
  have hre : restOf s = s.drop (if mach then 4 else 5) := by
    unfold restOf
    cases mach
    · rw [if_neg (fun h => absurd (hM.1 h) (by decide))]; rfl
    · rw [if_pos (hM.2 rfl)]; rfl
  have hwr := wm_drop hs (if mach then 4 else 5)
  have hFA : isFA (restOf s) = fa := by
    unfold isFA
    rw [hre]
    cases fa
    · simp only [Bool.false_eq_true, if_false, decide_eq_true_eq] at h2
      rcases h2 with h2 | h2
      · rw [take1_of_wm hwr _ h2]; decide
      · rw [take1_of_wm hwr _ h2]; decide
    · simp only [if_true, decide_eq_true_eq] at h2
      rcases h2 with h2 | h2
      · rw [take1_of_wm hwr _ h2]; decide
      · rw [take1_of_wm hwr _ h2]; decide
  have hlen : lvLen (restOf s) = if fa then 4 else 5 := by unfold lvLen; rw [hFA]
  refine ⟨hM, hFA, ?_, ?_, ?_, ?_⟩
  · rw [hsp]; exact contains_speed h3 (wm_take hs _)
  · unfold lv1Of; rw [hlen, hre]; exact contains_level h4 (wm_take hwr _)
  · unfold tailOf; rw [hlen, hre]
    have := wm_drop hwr (if fa then 4 else 5)
    have h5 : ((w.drop (if mach then 4 else 5)).drop (if fa then 4 else 5)) = litW (py! "PLUS") := by
      simpa using h5
    rw [h5] at this
    exact (lit_iff _ _).1 this
  · unfold lv1Of tailOf; rw [List.take_append_drop, hre, hsp, List.take_append_drop]

theorem plus_word {t : Token} (ht : Typed t) (mach fa : Bool) (subs : List SubType) (hs : t.sub ∈ subs)
    (hk : (table.all fun r => !(subs.contains r.sub) || r.words.all (plusChk mach fa)) = true)
    (hu : subs.contains .UNKNOWN = false) :
    ∃ w, plusChk mach fa w = true ∧ wm w t.text = true :=
  typed_word ht (fun _ u => subs.contains u) (plusChk mach fa) hk (by simpa using hs) hu hu

theorem vfr_facts {t : Token} (ht : Typed t) (hb : t.base = .SPEED_VFR) :
    (t.sub = .SPEED_ALTITUDE_MV ∧ t.text.take 1 = ['M'] ∨
      (t.sub = .SPEED_ALTITUDE_NV ∨ t.sub = .SPEED_ALTITUDE_KV) ∧ t.text.take 1 ≠ ['M']) ∧
    Speed (spOf t.text) ∧ restOf t.text = py! "VFR" := by
  have hm : t.sub ∈ [.SPEED_ALTITUDE_MV, .SPEED_ALTITUDE_NV, .SPEED_ALTITUDE_KV] :=
    typed_in ht _ hb _ (by decide) (by decide +kernel)
  have key : ∀ n, wm (litW (py! "VFR")) (t.text.drop n) = true → t.text.drop n = py! "VFR" :=
    fun n h => (lit_iff _ _).1 h
  simp only [List.mem_cons, List.not_mem_nil, or_false] at hm
  rcases hm with h | h
  · obtain ⟨w, hc, hw⟩ := typed_word ht (fun _ u => u = .SPEED_ALTITUDE_MV)
      (fun w => decide (w.take 1 = [kC 'M']) && speedW.contains (w.take 4) && decide (w.drop 4 = litW (py! "VFR")))
      (by decide +kernel) (by simpa using h) (by decide) (by decide)
    simp only [Bool.and_eq_true, decide_eq_true_eq] at hc
    have h1 := take1_of_wm hw _ hc.1.1
    have h3 := wm_drop hw 4
    rw [hc.2] at h3
    unfold spOf restOf
    rw [if_pos h1, if_pos h1]
    exact ⟨.inl ⟨h, h1⟩, contains_speed hc.1.2 (wm_take hw 4), key 4 h3⟩
  · obtain ⟨w, hc, hw⟩ := typed_word ht (fun _ u => u = .SPEED_ALTITUDE_NV ∨ u = .SPEED_ALTITUDE_KV)
      (fun w => decide (w.take 1 = [kC 'K'] ∨ w.take 1 = [kC 'N']) && speedW.contains (w.take 5) &&
        decide (w.drop 5 = litW (py! "VFR")))
      (by decide +kernel) (by simpa using h) (by decide) (by decide)
    simp only [Bool.and_eq_true, decide_eq_true_eq] at hc
    have h1 := take1_ne_M hw hc.1.1
    have h3 := wm_drop hw 5
    rw [hc.2] at h3
    unfold spOf restOf
    rw [if_neg h1, if_neg h1]
    exact ⟨.inr ⟨h, h1⟩, contains_speed hc.1.2 (wm_take hw 5), key 5 h3⟩

theorem stay_facts {t : Token} (ht : Typed t) (hb : t.base = .STAY_TIME) : TimeOfDay t.text := by
  rw [← c10_stay_time, typed_types ht (by rw [hb]; decide)]; exact hb

end F15
