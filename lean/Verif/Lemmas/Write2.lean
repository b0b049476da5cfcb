import Verif.Lemmas.Write
import Verif.Spec.Tokenizer
/-!
# Reading what is written from the elements: the induction over accepted routes
-/

namespace F15
open Spec

set_option linter.unusedSectionVars false
variable {F : Type} [PyFloat F]

/-! ### Elements -/

/-- A text the tokenizer can deliver. -/
abbrev TextOk (w : Str) : Prop := TokText f15Whitespace w

/-- The element has a speed and a level. -/
structure Flown (p : Record F) : Prop where
  sp : Speed p.speed
  lv : Level p.altitude
  five : FiveStep p.altitude
  asi : p.altitudeSi = levelSi F p.altitude
  ssi : p.speedSi = speedSi F p.speed p.altitudeSi

/-- The two elements have the same speed and level. -/
theorem Flown.congr {p q : Record F} (h : Flown p) (h1 : q.speed = p.speed) (h2 : q.altitude = p.altitude) (h3 : q.altitudeSi = p.altitudeSi)
    (h4 : q.speedSi = p.speedSi) : Flown q :=
  ⟨h1 ▸ h.sp, h2 ▸ h.lv, h2 ▸ h.five, by rw [h2, h3]; exact h.asi, by rw [h1, h3, h4]; exact h.ssi⟩

/-- The newest element on entering a phase. -/
def Enters (q : Phase) (p : Record F) : Prop :=
  match q with
  | .point f => p.rules = ruleI ∧ p.stayTime = 0 ∧ isPlaced p = f
  | .climb => p.stayTime = 0 ∧ isPlaced p = false
  | _ => True

/-- What a phase does to the newest element. -/
def Changes (q : Phase) (ws : List Str) (p p1 : Record F) : Prop :=
  match q with
  | .point _ => p1 = { p with speed := p1.speed, speedSi := p1.speedSi, altitude := p1.altitude, altitudeSi := p1.altitudeSi, stayTime := p1.stayTime }
  | .climb => p1 = { p with stayTime := p1.stayTime }
  | .text _ => p1 = ws.foldl Record.appendBreakText p
  | _ => p1 = p

/-- An element that differs from the newest only in what is written again. -/
def Waits (q : Phase) (p p' : Record F) : Prop :=
  match q with
  | .point _ => p = { p' with speed := p.speed, speedSi := p.speedSi, altitude := p.altitude, altitudeSi := p.altitudeSi }
  | _ => p' = p

/-- What is written in a phase about the newest element. -/
def about (q : Phase) (ws : List Str) (p1 : Record F) (next : Option (Record F)) : List Str :=
  match q with
  | .point _ => levelWords p1 next ++ stayWords p1 next
  | .climb => stayWords p1 next
  | .text _ => ws
  | _ => []

/-- What is written from a phase on. -/
def out (q : Phase) (ws : List Str) (p1 : Record F) (N : List (Record F)) : List Str := about q ws p1 N.head? ++ routeWords N

/-- The rest `ts` of a route, with actions `as`, can be written again. -/
structure Says (q : Phase) (ts : List Token) (as : List Act) (p : Record F) (ws : List Str) (p1 : Record F) (N : List (Record F)) : Prop where
  puts_eq : ∀ rs, puts as (p :: rs) = N.reverse ++ p1 :: rs
  changes : Changes q ws p p1
  flown : Flown p1
  fine : ∀ w ∈ out q ws p1 N, TextOk w
  heads : q = .stay ∨ q = .adep → isVfr N.head? = false ∧ ∀ w, (routeWords N).head? = some w → (tk w).base = .ROUTE → isAts N.head? = true
  run : ∃ as', Run q ((out q ws p1 N).map tk) as' ∧ ∀ p' rs, Waits q p p' → puts as' (p' :: rs) = N.reverse ++ p1 :: rs
  text : ∀ r, q = .text r → ((out q ws p1 N).map tk).head?.map (·.base) = ts.head?.map (·.base) ∧
    ∀ t t' : Token, t'.sub = t.sub → readOn t ts → readOn t' ((out q ws p1 N).map tk)

def CanSay (q : Phase) (ts : List Token) (as : List Act) (p : Record F) : Prop := ∃ ws p1 N, Says q ts as p ws p1 N

/-! ### Small facts -/

theorem allows_re (q : Phase) (t : Token) : q.allows t.re = q.allows t := by cases q <;> rfl

theorem slash_base : (tk (py! "/")).base = .SLASH := by decide +kernel
theorem c_base : (tk (py! "C")).base = .C := by decide +kernel
theorem stay_base : (tk (py! "STAY1")).base = .STAY := by decide +kernel

theorem plain_fine {w : Str} (h : w ≠ []) (hc : ∀ c ∈ w, '0' ≤ c) : TextOk w := by
  refine .inl ⟨h, fun c hw hm => ?_⟩
  have h1 := hc c hw
  unfold f15Whitespace at hm
  simp only [List.mem_cons, List.not_mem_nil, or_false] at hm
  rcases hm with rfl | rfl | rfl | rfl | rfl <;> exact absurd h1 (by decide)

theorem slash_fine : TextOk (py! "/") := .inr ⟨rfl, by decide⟩
theorem c_fine : TextOk (py! "C") := plain_fine (by decide) (by decide)
theorem stay_fine : TextOk (py! "STAY1") := plain_fine (by decide) (by decide)

theorem unitDigits_ge {us : List Char} {n : Nat} {s : Str} (hu : ∀ u ∈ us, '0' ≤ u) (h : UnitDigits us n s) : ∀ c ∈ s, '0' ≤ c := by
  obtain ⟨u, d, h1, rfl, h2⟩ := h
  intro c hc
  rcases List.mem_cons.1 hc with rfl | hc
  · exact hu _ h1
  · exact (h2.2 c hc).1

theorem speed_ge {s : Str} (h : Speed s) : ∀ c ∈ s, '0' ≤ c := by
  rcases h with h | h <;> exact unitDigits_ge (by decide) h

theorem level_ge {s : Str} (h : Level s) : ∀ c ∈ s, '0' ≤ c := by
  rcases h with h | h <;> exact unitDigits_ge (by decide) h

theorem speed_some {s : Str} (h : Speed s) : s ≠ [] := by
  rcases h with ⟨u, d, _, rfl, _⟩ | ⟨u, d, _, rfl, _⟩ <;> simp

theorem level_fine {a b : Str} (ha : Speed a) (hb : ∀ c ∈ b, '0' ≤ c) : TextOk (a ++ b) := by
  refine plain_fine (by simp [speed_some ha]) ?_
  intro c hc
  rcases List.mem_append.1 hc with hc | hc
  · exact speed_ge ha c hc
  · exact hb c hc

theorem time_fine {s : Str} (h : TimeOfDay s) : TextOk s := by
  obtain ⟨a, b, c, d, rfl, ha, hb, hc, hd, _⟩ := h
  refine plain_fine (by simp) ?_
  intro x hx
  simp only [List.mem_cons, List.not_mem_nil, or_false] at hx
  rcases hx with rfl | rfl | rfl | rfl
  · exact ha.1
  · exact hb.1
  · exact hc.1
  · exact hd.1

theorem reaches_ge {s : Str} (h : Reaches s) : ∀ c ∈ s, '0' ≤ c := by
  rcases h with ⟨h, _⟩ | h | h
  · exact level_ge h
  · exact fun c hc => (h.2 c hc).1
  · exact fun c hc => (h.2 c hc).1

theorem climb_fine {to : Str} (h : Reaches to ∨ to = py! "PLUS") : TextOk (climbWord to) := by
  rcases h with h | rfl
  · unfold climbWord
    rw [if_neg (climb_level h).2.2.2]
    have hc := reaches_ge h
    split
    · refine plain_fine (by simp) ?_
      intro c hx
      rcases List.mem_append.1 hx with hx | hx
      · exact (show ∀ c ∈ py! "M000F000", '0' ≤ c by decide) c hx
      · rcases List.mem_cons.1 hx with rfl | hx
        · split <;> decide
        · exact hc c hx
    · refine plain_fine (by simp) ?_
      intro c hx
      rcases List.mem_append.1 hx with hx | hx
      · exact (show ∀ c ∈ py! "N0000F000", '0' ≤ c by decide) c hx
      · exact hc c hx
  · exact plain_fine (by decide) (by decide)

theorem stay_typed {m : Token} (ht : Typed m) (hb : m.base = .STAY_TIME) : TimeOfDay m.text := by
  have h := tk_re ht
  have hb' : (tk m.text).base = .STAY_TIME := by rw [h]; exact hb
  by_cases hu : (getTokenType m.text).1 = .UNKNOWN
  · exfalso
    unfold tk at hb'
    rw [assignSyntax_eq] at hb'
    split at hb'
    · cases hb'
    · have : (getTokenType m.text).1 = .STAY_TIME := hb'
      rw [hu] at this; cases this
  · rw [(tk_known hu).1] at hb'
    exact (c10_stay_time _).1 hb'

theorem tk_stay {s : Str} (h : TimeOfDay s) : (tk s).base = .STAY_TIME := by
  have h' := (c10_stay_time s).2 h
  exact (tk_known (by rw [h']; decide)).1.trans h'

/-- Saying speed and level again. -/
theorem level_put {p p' : Record F} {f : Bool} (hg : Flown p) (hr : p.rules = ruleI) (hw : Waits (.point f) p p') (rs : List (Record F)) :
    (Act.level (tk (p.speed ++ p.altitude))).put (p' :: rs) = p :: rs := by
  obtain ⟨_, _, h3, h4⟩ := tk_level hg.sp hg.lv hg.five
  show toIfr (setSpeed (spOf (tk (p.speed ++ p.altitude)).text) (setLevel (restOf (tk (p.speed ++ p.altitude)).text) p')) :: rs = _
  rw [h3, h4]
  congr 1
  unfold toIfr setSpeed setLevel Record.setRules
  dsimp only
  have hw : p = { p' with speed := p.speed, speedSi := p.speedSi, altitude := p.altitude, altitudeSi := p.altitudeSi } := hw
  conv => rhs; rw [hw]
  rw [hw] at hr
  have h1 := hg.asi
  have h2 := hg.ssi
  have h5 : p'.rules = ruleI := hr
  rw [h2, h1, ← h5]

theorem said_level {f : Bool} {p : Record F} (hg : Flown p) (hr : p.rules = ruleI) {W : List Token} {as : List Act} (h : Run (.point f) W as) :
    Run (.point f) (tk (py! "/") :: tk (p.speed ++ p.altitude) :: W) (.level (tk (p.speed ++ p.altitude)) :: as) ∧
    ∀ p' rs, Waits (.point f) p p' → puts (.level (tk (p.speed ++ p.altitude)) :: as) (p' :: rs) = puts as (p :: rs) := by
  obtain ⟨h1, h2, _⟩ := tk_level hg.sp hg.lv hg.five
  refine ⟨.level slash_base h1 (fun _ => h2) h, fun p' rs hw => ?_⟩
  rw [puts_cons, level_put hg hr hw]

/-- A route that needs no other words. -/
theorem says_on {q : Phase} {ts : List Token} {as as' : List Act} {p : Record F} {N : List (Record F)} (hq : ∀ r, q ≠ .text r) (hg : Flown p)
    (hs : Enters q p) (h1 : ∀ rs, puts as (p :: rs) = N.reverse ++ p :: rs) (hv : isVfr N.head? = false)
    (ha : q = .point true → isAts N.head? = false)
    (hh : ∀ w, (routeWords N).head? = some w → (tk w).base = .ROUTE → isAts N.head? = true)
    (hf : ∀ w ∈ routeWords N, TextOk w) (hr : Run q ((routeWords N).map tk) as') (h2 : ∀ rs, puts as' (p :: rs) = N.reverse ++ p :: rs) :
    Says q ts as p [] p N := by
  have other : ∀ (_ : about q [] p N.head? = []) (_ : Changes q [] p p) (_ : ∀ p', Waits q p p' → p' = p), Says q ts as p [] p N := by
    intro e c w
    have eo : out q [] p N = routeWords N := by unfold out; rw [e]; rfl
    exact ⟨h1, c, hg, by rw [eo]; exact hf, fun _ => ⟨hv, hh⟩, ⟨as', by rw [eo]; exact hr, fun p' rs hp => by rw [w p' hp]; exact h2 rs⟩,
      fun r hr => absurd hr (hq r)⟩
  cases q with
  | text r => exact absurd rfl (hq r)
  | adep | sid | dct | route | stay => exact other rfl rfl fun p' h => h
  | climb =>
    obtain ⟨s1, s2⟩ := hs
    refine other ?_ rfl fun p' h => h
    show stayWords p _ = []
    unfold stayWords
    rw [if_neg (by simp [s1, s2])]
  | point f =>
    obtain ⟨s0, s1, s2⟩ := hs
    have e : out (.point f) [] p N = py! "/" :: (p.speed ++ p.altitude) :: routeWords N := by
      show levelWords p _ ++ stayWords p _ ++ _ = _
      unfold levelWords stayWords
      rw [hv, if_neg (by decide), if_neg]
      · rfl
      · rintro (h | ⟨h, h'⟩)
        · exact h s1
        · rw [s2] at h
          cases f with
          | false => cases h
          | true => rw [ha rfl] at h'; cases h'
    obtain ⟨r1, r2⟩ := said_level hg s0 hr
    refine ⟨h1, rfl, hg, ?_, (fun h => by rcases h with h | h <;> cases h), ⟨_, by rw [e]; exact r1, fun p' rs hw => by rw [r2 p' rs hw, h2]⟩, (fun r h => by cases h)⟩
    rw [e]
    intro w hw
    rcases List.mem_cons.1 hw with rfl | hw
    · exact slash_fine
    · rcases List.mem_cons.1 hw with rfl | hw
      · exact level_fine hg.sp (level_ge hg.lv)
      · exact hf w hw

/-- A route that goes on with an element. -/
theorem says_item {q q' : Phase} {ts ts' : List Token} {as a b : List Act} {p r0 r0' p1 : Record F} {hs ws : List Str} {N : List (Record F)}
    (hq : ∀ r, q ≠ .text r) (hg : Flown p) (he : Enters q p)
    (ha : ∀ rs, puts a (p :: rs) = r0 :: p :: rs) (hb : ∀ rs, puts b (p :: rs) = r0' :: p :: rs) (hw : Waits q' r0 r0')
    (S : Says q' ts' as r0 ws p1 N) (own : ∀ x, ownWords p1 ++ aboutWords p1 x = hs ++ about q' ws p1 x)
    (hv : isVfr (some p1) = false) (hat : q = .point true → isAts (some p1) = false) (hne : hs ≠ [])
    (hh : ∀ w, hs.head? = some w → (tk w).base = .ROUTE → isAts (some p1) = true) (hf : ∀ w ∈ hs, TextOk w)
    (hc : ∀ W as', Run q' W as' → Run q (hs.map tk ++ W) (b ++ as')) : CanSay q ts (a ++ as) p := by
  have e : routeWords (p1 :: N) = hs ++ out q' ws p1 N := by
    show ownWords p1 ++ aboutWords p1 N.head? ++ routeWords N = _
    rw [own, List.append_assoc]; rfl
  obtain ⟨as', r1, r2⟩ := S.run
  have ap : ∀ (x y : List Act) (l : List (Record F)), puts (x ++ y) l = puts y (puts x l) := fun x y l => List.foldl_append ..
  refine ⟨[], p, p1 :: N, says_on (as' := b ++ as') hq hg he ?_ hv hat ?_ ?_ ?_ ?_⟩
  · intro rs; rw [ap, ha, S.puts_eq]; simp
  · intro w h
    refine hh w ?_
    rw [← h, e]
    cases hs with
    | nil => exact absurd rfl hne
    | cons x y => rfl
  · intro w h
    rw [e] at h
    rcases List.mem_append.1 h with h | h
    · exact hf w h
    · exact S.fine w h
  · rw [e, List.map_append]; exact hc _ _ r1
  · intro rs; rw [ap, hb, r2 _ _ hw]; simp

end F15
