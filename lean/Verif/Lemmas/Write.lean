import Verif.Lemmas.Local
import Verif.Lemmas.Sentence
import Verif.Lemmas.Numbers
import Verif.Lemmas.Story
import Verif.Props.Classify
import Verif.Props.Depth
import Verif.Spec.Write
import Verif.Spec.Recover
/-!
# Reading what is written from the elements
-/

namespace F15
open Spec

set_option linter.unusedSectionVars false
variable {F : Type} [PyFloat F]

/-! ### Actions without indices and courses -/

/-- The element without indices and course. -/
def bare (r : Record F) : Record F := { r with start := 0, stop := 0, bearing := fzero, distance := fzero }

/-- The effect of an action on the elements without indices and courses. -/
def Act.put (a : Act) : List (Record F) → List (Record F)
  | [] => []
  | p :: rs => if a.records then bare (a.newRec p) :: a.before p :: rs else a.tweak p :: rs

def puts (as : List Act) (l : List (Record F)) : List (Record F) := as.foldl (fun l a => a.put l) l

theorem puts_cons (a : Act) (as : List Act) (l : List (Record F)) : puts (a :: as) l = puts as (a.put l) := rfl

theorem bare_new (a : Act) (p : Record F) : bare (a.newRec p) = bare (a.newRec (bare p)) := by
  cases a with
  | point t => unfold Act.newRec posHead; dsimp only; cases t.sub <;> rfl
  | vToI t => unfold Act.newRec posHead; dsimp only; cases t.sub <;> rfl
  | ccPoint t => unfold Act.newRec posHead; dsimp only; cases t.sub <;> rfl
  | brk t => unfold Act.newRec brkRules; dsimp only; cases t.sub <;> rfl
  | _ => rfl

theorem bare_before (a : Act) (p : Record F) : bare (a.before p) = a.before (bare p) := by cases a <;> rfl

theorem bare_tweak (a : Act) (p : Record F) : bare (a.tweak p) = a.tweak (bare p) := by
  cases a with
  | text t => 
    show bare (p.appendBreakText t.text) = (bare p).appendBreakText t.text
    unfold Record.appendBreakText
    show bare _ = if p.breakText = [] then _ else _
    split <;> rfl
  | _ => rfl

theorem bare_keep {l l' : List (Record F)} (h : All2 KeepPos l l') : l'.map bare = l.map bare := by
  induction h with
  | nil => rfl
  | cons r _ ih =>
    rw [List.map_cons, List.map_cons, ih]
    congr 1
    rw [show _ = _ from r]; rfl

theorem bare_recs (a : Act) (p : Record F) (rs : List (Record F)) : (a.recs (p :: rs)).map bare = a.put ((p :: rs).map bare) := by
  by_cases hr : a.records = true
  · obtain ⟨l', h, k⟩ := push_shape' a hr p rs
    rw [h, List.map_cons, bare_keep k]
    show _ = if a.records then _ else _
    rw [if_pos hr, List.map_cons, bare_before, ← bare_new]
  · have hr : a.records = false := by simpa using hr
    rw [note_shape a hr]
    show _ = if a.records then _ else _
    rw [if_neg (by simp [hr]), List.map_cons, bare_tweak]

theorem bare_runs (as : List Act) : ∀ l : List (Record F), l ≠ [] → (runsL as l).map bare = puts as (l.map bare) := by
  induction as with
  | nil => intro l _; rfl
  | cons a as ih =>
    intro l hl
    show (runsL as (a.recs l)).map bare = puts as (a.put (l.map bare))
    rw [ih _ (a.recs_ne l hl)]
    cases l with
    | nil => exact absurd rfl hl
    | cons p rs => rw [bare_recs]

/-! ### Tokens -/

/-- A token of this text. -/
def tk (s : Str) : Token := assignSyntax ⟨s, 0, 0, .UNKNOWN, .UNKNOWN⟩

/-- The token without its indices. -/
def Token.re (t : Token) : Token := { t with start := 0, stop := 0 }

theorem tk_text (s : Str) : (tk s).text = s := assign_text _

theorem tk_typed (s : Str) : Typed (tk s) := typed_assign _

theorem tk_re {t : Token} (h : Typed t) : tk t.text = t.re := by
  unfold Typed at h
  unfold tk Token.re
  conv => rhs; rw [← h]
  rw [assignSyntax_eq, assignSyntax_eq]
  split <;> rfl

theorem tk_known {s : Str} (h : (getTokenType s).1 ≠ .UNKNOWN) : (tk s).base = (getTokenType s).1 ∧ (tk s).sub = (getTokenType s).2 := by
  have := length_le_17 s h
  unfold tk
  rw [assignSyntax_eq, if_neg (by show ¬ s.length > 25; omega)]
  exact ⟨rfl, rfl⟩

/-- The action on the token without its indices. -/
def Act.re : Act → Act
  | .err t n => .err t.re n
  | .point t => .point t.re
  | .vToI t => .vToI t.re
  | .vToIToV t => .vToIToV t.re
  | .route t => .route t.re
  | .plain t => .plain t.re
  | .brk t => .brk t.re
  | .sid t => .sid t.re
  | .star t => .star t.re
  | .ccPoint t => .ccPoint t.re
  | .vfr t => .vfr t.re
  | .level t => .level t.re
  | .levels t => .levels t.re
  | .plus t => .plus t.re
  | .text t => .text t.re
  | .stay t => .stay t.re

theorem re_new (a : Act) (p : Record F) : bare (a.re.newRec p) = bare (a.newRec p) := by
  cases a with
  | point t => obtain ⟨x, s, e, b, u⟩ := t; cases u <;> rfl
  | vToI t => obtain ⟨x, s, e, b, u⟩ := t; cases u <;> rfl
  | ccPoint t => obtain ⟨x, s, e, b, u⟩ := t; cases u <;> rfl
  | brk t => obtain ⟨x, s, e, b, u⟩ := t; cases u <;> rfl
  | _ => rfl

theorem re_put (a : Act) (l : List (Record F)) : a.re.put l = a.put l := by
  cases l with
  | nil => rfl
  | cons p rs =>
    show (if a.re.records then _ else _) = if a.records then _ else _
    rw [show a.re.records = a.records by cases a <;> rfl, re_new, show a.re.before p = a.before p by cases a <;> rfl,
      show a.re.tweak p = a.tweak p by cases a <;> rfl]

/-! ### Speeds, levels and stays -/

theorem sp_append {a : Str} (h : Speed a) (b : Str) : spOf (a ++ b) = a ∧ restOf (a ++ b) = b := by
  have key : ∀ (n : Nat) (u : Char) (d : Str), d.length = n → (u :: d ++ b).take (n + 1) = u :: d ∧ (u :: d ++ b).drop (n + 1) = b := by
    intro n u d hd
    constructor
    · rw [List.take_append_of_le_length (by simp [hd]), List.take_of_length_le (by simp [hd])]
    · rw [List.drop_append_of_le_length (by simp [hd]), List.drop_of_length_le (by simp [hd])]; rfl
  unfold spOf restOf
  rcases h with ⟨u, d, hu, rfl, hl, _⟩ | ⟨u, d, hu, rfl, hl, _⟩
  · simp only [List.mem_singleton] at hu
    subst hu
    have hm : ('M' :: d ++ b).take 1 = ['M'] := rfl
    rw [if_pos hm, if_pos hm]
    exact key 3 'M' d hl
  · have : u ≠ 'M' := by rintro rfl; simp at hu
    have hn : ¬ (u :: d ++ b).take 1 = ['M'] := by simp [this]
    rw [if_neg hn, if_neg hn]
    exact key 4 u d hl

theorem tk_level {a b : Str} (ha : Speed a) (hb : Level b) (hf : FiveStep b) :
    (tk (a ++ b)).base = .SPEED_ALTITUDE ∧ (Act.level (tk (a ++ b))).nums = [] ∧ spOf (tk (a ++ b)).text = a ∧ restOf (tk (a ++ b)).text = b := by
  have h := (c10_speed_level (a ++ b)).2 ⟨a, b, rfl, ha, hb⟩
  obtain ⟨h1, h2⟩ := sp_append ha b
  refine ⟨(tk_known (by rw [h]; decide)).1.trans h, ?_, by rw [tk_text, h1], by rw [tk_text, h2]⟩
  show granErr (restOf (tk (a ++ b)).text) = []
  rw [tk_text, h2, gran_iff]; exact hf

theorem tk_vfr {a : Str} (ha : Speed a) : (tk (a ++ py! "VFR")).base = .SPEED_VFR ∧ spOf (tk (a ++ py! "VFR")).text = a := by
  have h := (c10_speed_vfr (a ++ py! "VFR")).2 ⟨a, rfl, ha⟩
  exact ⟨(tk_known (by rw [h]; decide)).1.trans h, by rw [tk_text, (sp_append ha _).1]⟩

theorem tk_sub {s : Str} {u : SubType} (h : (getTokenType s).2 = u) (hu : u ≠ .UNKNOWN) : (tk s).sub = u := by
  have : (getTokenType s).1 ≠ .UNKNOWN := by
    intro h1
    rw [(c07_unknown_base s).1 h1] at h
    exact hu h.symm
  rw [(tk_known this).2, h]

/-- The levels a cruise climb can lead to. -/
def Reaches (to : Str) : Prop := (Level to ∧ FiveStep to) ∨ Digits 3 to ∨ Digits 4 to

theorem reaches_level {t : Token} (ht : Typed t) (hb : t.base = .SPEED_ALTITUDE_ALTITUDE) (hs : t.sub ∉ ccBad) (hn : (Act.levels t).nums = []) :
    Reaches (lv2Of t.text) := by
  obtain ⟨_, _, h3, _⟩ := levels_facts ht hb hs
  have hg : granErr (lv2Of t.text) = [] := (List.append_eq_nil_iff.1 (show granErr (lv1Of t.text) ++ granErr (lv2Of t.text) = [] from hn)).2
  unfold lv2Of at hg ⊢
  split at hg <;> rename_i hx
  · rw [if_pos hx]; exact .inl ⟨h3, gran_iff.1 hg⟩
  · rw [if_neg hx]
    rcases h3 with ⟨u, d, _, h, hd⟩ | ⟨u, d, _, h, hd⟩ <;> rw [h]
    · exact .inr (.inl hd)
    · exact .inr (.inr hd)

theorem digits_zero (n : Nat) : Digits n (List.replicate n '0') :=
  ⟨List.length_replicate .., fun c hc => by rw [(List.mem_replicate.1 hc).2]; exact ⟨by decide, by decide⟩⟩

theorem digit_is {c : Char} (h : Digit c) : c.isDigit = true := by
  unfold Char.isDigit
  have h1 : '0'.val ≤ c.val := h.1
  have h2 : c.val ≤ '9'.val := h.2
  simp only [ge_iff_le, Bool.and_eq_true, decide_eq_true_eq]
  exact ⟨h1, h2⟩

theorem climb_eq {k : Char × Char × Char} {u : SubType} {w to : Str} (hk : (k, u) ∈ cruiseClimbSubtypes) (hw : k ∉ wrongCombos) (hu : u ∉ ccBad)
    (h : SpeedLevelLevelOf k w) (hg1 : granErr (lv1Of w) = []) (h2 : lv2Of w = to) (hg2 : granErr to = []) :
    ClimbAct (tk w) (.levels (tk w)) ∧ lv2Of (tk w).text = to := by
  have ht := c11_partial k u hk hw w h
  have hb := tk_known (s := w) (by rw [ht]; exact (by decide : BaseType.SPEED_ALTITUDE_ALTITUDE ≠ .UNKNOWN))
  rw [ht] at hb
  refine ⟨.inl ⟨hb.1, by rw [hb.2]; exact hu, rfl, fun _ => ?_⟩, by rw [tk_text, h2]⟩
  show granErr (lv1Of (tk w).text) ++ granErr (lv2Of (tk w).text) = []
  rw [tk_text, hg1, h2, hg2]; rfl

theorem climb_level {to : Str} (h : Reaches to) : ClimbAct (tk (climbWord to)) (.levels (tk (climbWord to))) ∧ lv2Of (tk (climbWord to)).text = to ∧
    to ≠ [] ∧ to ≠ py! "PLUS" := by
  have z : ∀ n : Nat, List.replicate n '0' = List.replicate n '0' := fun _ => rfl
  rcases h with ⟨h, hf⟩ | h | h
  · have hg : granErr to = [] := gran_iff.2 hf
    have : ∃ u d k, to = u :: d ∧ (('N', 'F', u), k) ∈ cruiseClimbSubtypes ∧ ('N', 'F', u) ∉ wrongCombos ∧ k ∉ ccBad ∧ u.isDigit = false ∧ u ≠ 'P' ∧
        Digits (levelDigits u) d := by
      rcases h with ⟨u, d, hu, h, hd⟩ | ⟨u, d, hu, h, hd⟩ <;> simp only [List.mem_cons, List.not_mem_nil, or_false] at hu <;> rcases hu with rfl | rfl
      · exact ⟨_, d, .SPEED_ALTITUDE_NFF, h, by decide, by decide, by decide, by decide, by decide, hd⟩
      · exact ⟨_, d, .SPEED_ALTITUDE_NFA, h, by decide, by decide, by decide, by decide, by decide, hd⟩
      · exact ⟨_, d, .SPEED_ALTITUDE_NFS, h, by decide, by decide, by decide, by decide, by decide, hd⟩
      · exact ⟨_, d, .SPEED_ALTITUDE_NFM, h, by decide, by decide, by decide, by decide, by decide, hd⟩
    obtain ⟨u, d, k, rfl, h1, h2, h3, h4, h5, hd⟩ := this
    have hp : u :: d ≠ py! "PLUS" := by intro h; simp only [List.cons.injEq] at h; exact h5 h.1
    have hc : climbWord (u :: d) = py! "N0000F000" ++ u :: d := by
      unfold climbWord; rw [if_neg hp, if_neg (by simp [h4])]
    rw [hc]
    obtain ⟨a, b⟩ := climb_eq (w := py! "N0000F000" ++ u :: d) (to := u :: d) h1 h2 h3
      ⟨py! "N0000", (py! "F000"), u :: d, rfl, ⟨'N', _, by simp, rfl, digits_zero 4⟩, ⟨'F', _, by simp, rfl, digits_zero 3⟩, ⟨u, d, by simp, rfl, hd⟩⟩
      (by show granErr (py! "F000") = []; decide) rfl hg
    exact ⟨a, b, by simp, hp⟩
  · have : ∃ c d, to = c :: d := by
      cases to with
      | nil => simp [Digits] at h
      | cons c d => exact ⟨c, d, rfl⟩
    obtain ⟨c, d, rfl⟩ := this
    have hi := digit_is (h.2 c (by simp))
    have hp : c :: d ≠ py! "PLUS" := by rintro h; simp only [List.cons.injEq] at h; rw [h.1] at hi; exact absurd hi (by decide)
    have hc : climbWord (c :: d) = py! "M000F000F" ++ c :: d := by
      unfold climbWord; rw [if_neg hp, if_pos (by simpa using hi), if_pos h.1]; rfl
    rw [hc]
    obtain ⟨a, b⟩ := climb_eq (k := ('M', 'F', 'F')) (u := .SPEED_ALTITUDE_MFF) (w := py! "M000F000F" ++ c :: d) (to := c :: d) (by decide) (by decide) (by decide)
      ⟨py! "M000", (py! "F000"), 'F' :: c :: d, rfl, ⟨'M', _, by simp, rfl, digits_zero 3⟩, ⟨'F', _, by simp, rfl, digits_zero 3⟩, ⟨'F', _, by simp, rfl, h⟩⟩
      (by show granErr (py! "F000") = []; decide) rfl (digits_gran h.2)
    exact ⟨a, b, by simp, hp⟩
  · have : ∃ c d, to = c :: d := by
      cases to with
      | nil => simp [Digits] at h
      | cons c d => exact ⟨c, d, rfl⟩
    obtain ⟨c, d, rfl⟩ := this
    have hi := digit_is (h.2 c (by simp))
    have hp : c :: d ≠ py! "PLUS" := by rintro h; simp only [List.cons.injEq] at h; rw [h.1] at hi; exact absurd hi (by decide)
    have hc : climbWord (c :: d) = py! "M000F000M" ++ c :: d := by
      unfold climbWord; rw [if_neg hp, if_pos (by simpa using hi), if_neg (by rw [h.1]; decide)]; rfl
    rw [hc]
    obtain ⟨a, b⟩ := climb_eq (k := ('M', 'F', 'M')) (u := .SPEED_ALTITUDE_MFM) (w := py! "M000F000M" ++ c :: d) (to := c :: d) (by decide) (by decide) (by decide)
      ⟨py! "M000", (py! "F000"), 'M' :: c :: d, rfl, ⟨'M', _, by simp, rfl, digits_zero 3⟩, ⟨'F', _, by simp, rfl, digits_zero 3⟩, ⟨'M', _, by simp, rfl, h⟩⟩
      (by show granErr (py! "F000") = []; decide) rfl (digits_gran h.2)
    exact ⟨a, b, by simp, hp⟩

theorem climb_plus : ClimbAct (tk (climbWord (py! "PLUS"))) (.plus (tk (climbWord (py! "PLUS")))) := by
  refine .inr ⟨by decide +kernel, rfl, by decide +kernel⟩

theorem digit_char {n : Nat} (h : n < 10) : Digit (Char.ofNat (48 + n)) ∧ dval (Char.ofNat (48 + n)) = n := by
  match n, h with
  | 0, _ | 1, _ | 2, _ | 3, _ | 4, _ | 5, _ | 6, _ | 7, _ | 8, _ | 9, _ => exact ⟨⟨by decide, by decide⟩, by decide⟩
  | n + 10, h => omega

theorem stay_word {s : Str} (h : TimeOfDay s) : TimeOfDay (hoursMinutes (stayVal s)) ∧ stayVal (hoursMinutes (stayVal s)) = stayVal s := by
  obtain ⟨a, b, c, d, rfl, ha, hb, hc, hd, h1, h2⟩ := h
  have e : stayVal [a, b, c, d] = (((10 * dval a + dval b) * 60 + (10 * dval c + dval d) : Nat) : Int) := by
    simp only [stayVal, numVal, List.take, List.drop, List.foldl]; simp
  rw [e]
  generalize 10 * dval a + dval b = x at *
  generalize 10 * dval c + dval d = y at *
  have hx : (x * 60 + y) / 60 = x := by omega
  have hy : (x * 60 + y) % 60 = y := by omega
  unfold hoursMinutes
  rw [Int.toNat_natCast, hx, hy]
  obtain ⟨k1, e1⟩ := digit_char (n := x / 10) (by omega)
  obtain ⟨k2, e2⟩ := digit_char (n := x % 10) (by omega)
  obtain ⟨k3, e3⟩ := digit_char (n := y / 10) (by omega)
  obtain ⟨k4, e4⟩ := digit_char (n := y % 10) (by omega)
  refine ⟨⟨_, _, _, _, rfl, k1, k2, k3, k4, by rw [e1, e2]; omega, by rw [e3, e4]; omega⟩, ?_⟩
  simp only [twoDigits, stayVal, numVal, List.cons_append, List.nil_append, List.take, List.drop, List.foldl, e1, e2, e3, e4]
  congr 1; omega

end F15
