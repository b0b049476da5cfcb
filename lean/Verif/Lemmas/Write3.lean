import Verif.Lemmas.Write2
/-!
# Reading what is written from the elements: the cases of the induction
-/

namespace F15
open Spec

set_option linter.unusedSectionVars false
variable {F : Type} [PyFloat F]

/-! ### Words of free text -/

theorem cut_append (a b : Str) : cutBlanks (a ++ ' ' :: b) = cutBlanks a ++ cutBlanks b := by
  have ne : ∀ s : Str, cutBlanks s ≠ [] := by
    intro s
    cases s with
    | nil => simp [cutBlanks]
    | cons c s => unfold cutBlanks; split; simp; split <;> simp
  induction a with
  | nil => show (if ' ' = ' ' then _ else _) = _; rw [if_pos rfl]; rfl
  | cons c a ih =>
    show (if c = ' ' then [] :: cutBlanks (a ++ ' ' :: b) else match cutBlanks (a ++ ' ' :: b) with | w :: ws => (c :: w) :: ws | [] => [[c]]) =
      (if c = ' ' then [] :: cutBlanks a else match cutBlanks a with | w :: ws => (c :: w) :: ws | [] => [[c]]) ++ cutBlanks b
    rw [ih]
    by_cases hc : c = ' '
    · rw [if_pos hc, if_pos hc]; rfl
    · rw [if_neg hc, if_neg hc]
      cases h : cutBlanks a with
      | nil => exact absurd h (ne a)
      | cons w ws => rfl

theorem cut_word {w : Str} (h : ' ' ∉ w) : cutBlanks w = [w] := by
  induction w with
  | nil => rfl
  | cons c w ih =>
    simp only [List.mem_cons, not_or] at h
    show (if c = ' ' then _ else _) = _
    rw [if_neg (fun hc => h.1 hc.symm), ih h.2]

theorem fine_blank {w : Str} (h : TextOk w) : w ≠ [] ∧ ' ' ∉ w := by
  rcases h with ⟨h1, h2⟩ | ⟨rfl, _⟩
  · exact ⟨h1, fun hc => h2 _ hc (by decide)⟩
  · exact ⟨by simp, by decide⟩

theorem append_words {p : Record F} {w : Str} (h : TextOk w) : textWords (p.appendBreakText w).breakText = textWords p.breakText ++ [w] := by
  obtain ⟨h1, h2⟩ := fine_blank h
  have e : (cutBlanks w).filter (· ≠ []) = [w] := by rw [cut_word h2]; simp [h1]
  unfold Record.appendBreakText
  split
  · rename_i hb
    rw [hb]
    show (cutBlanks w).filter _ = _
    rw [e]; rfl
  · show (cutBlanks (p.breakText ++ ' ' :: w)).filter _ = _
    rw [cut_append, List.filter_append, e]; rfl

theorem appends_words (ws : List Str) (h : ∀ w ∈ ws, TextOk w) : ∀ p : Record F,
    textWords (ws.foldl Record.appendBreakText p).breakText = textWords p.breakText ++ ws := by
  induction ws with
  | nil => intro p; simp
  | cons w ws ih =>
    intro p
    rw [List.foldl_cons, ih (fun x hx => h x (by simp [hx])), append_words (h w (by simp))]; simp

/-- Free text changes nothing but the text. -/
theorem appends_eq (ws : List Str) : ∀ p : Record F,
    ws.foldl Record.appendBreakText p = { p with breakText := (ws.foldl Record.appendBreakText p).breakText } := by
  induction ws with
  | nil => intro p; rfl
  | cons w ws ih =>
    intro p
    rw [List.foldl_cons, ih]
    have : p.appendBreakText w = { p with breakText := (p.appendBreakText w).breakText } := by
      unfold Record.appendBreakText; split <;> rfl
    rw [this]

/-! ### New elements -/

/-- The element is new. -/
structure Born (t : Token) (p r : Record F) : Prop where
  name : r.name = t.text
  base : r.base = t.base
  sub : r.sub = t.sub
  cruise : r.cruiseTo = []
  stay : r.stayTime = 0
  text : r.breakText = []
  speed : r.speed = p.speed
  speedSi : r.speedSi = p.speedSi
  altitude : r.altitude = p.altitude
  altitudeSi : r.altitudeSi = p.altitudeSi

theorem posHead_shape (t : Token) (r : Record F) : ∃ la lo v, posHead t r = { r with latitude := la, longitude := lo, latLongValid := v } := by
  unfold posHead
  split
  · exact ⟨_, _, _, rfl⟩
  · exact ⟨_, _, _, rfl⟩
  · exact ⟨_, _, _, rfl⟩
  · exact ⟨_, _, _, rfl⟩
  · exact ⟨r.latitude, r.longitude, r.latLongValid, rfl⟩

theorem posHead_id {t : Token} {r : Record F} (h : (posHead t r).latLongValid = false) : posHead t r = r := by
  obtain ⟨x, s, e, b, u⟩ := t
  cases u <;> first | rfl | cases h

theorem born_point (t : Token) (p : Record F) : Born t p (bare ((Act.point t).newRec p)) := by
  obtain ⟨la, lo, v, e⟩ := posHead_shape t (toIfr (fresh p t))
  show Born t p (bare (posHead t (toIfr (fresh p t))))
  rw [e]; exact ⟨rfl, rfl, rfl, rfl, rfl, rfl, rfl, rfl, rfl, rfl⟩

theorem born_vToI (t : Token) (p : Record F) : Born t p (bare ((Act.vToI t).newRec p)) := by
  obtain ⟨la, lo, v, e⟩ := posHead_shape t (fresh p t)
  show Born t p (bare (toIfr (posHead t (fresh p t))))
  rw [e]; exact ⟨rfl, rfl, rfl, rfl, rfl, rfl, rfl, rfl, rfl, rfl⟩

theorem born_cc (t : Token) (p : Record F) : Born t p (bare ((Act.ccPoint t).newRec p)) := by
  obtain ⟨la, lo, v, e⟩ := posHead_shape t (fresh p t)
  show Born t p (bare (posHead t (fresh p t)))
  rw [e]; exact ⟨rfl, rfl, rfl, rfl, rfl, rfl, rfl, rfl, rfl, rfl⟩

theorem born_plain (t : Token) (p : Record F) : Born t p (bare ((Act.plain t).newRec p)) := ⟨rfl, rfl, rfl, rfl, rfl, rfl, rfl, rfl, rfl, rfl⟩
theorem born_route (t : Token) (p : Record F) : Born t p (bare ((Act.route t).newRec p)) := ⟨rfl, rfl, rfl, rfl, rfl, rfl, rfl, rfl, rfl, rfl⟩
theorem born_vToIToV (t : Token) (p : Record F) : Born t p (bare ((Act.vToIToV t).newRec p)) := ⟨rfl, rfl, rfl, rfl, rfl, rfl, rfl, rfl, rfl, rfl⟩
theorem born_brk (t : Token) (p : Record F) : Born t p (bare ((Act.brk t).newRec p)) := by
  have : ∃ r, brkRules t.sub (fresh p t) = { fresh p t with rules := r } := by
    unfold brkRules; split
    · exact ⟨_, rfl⟩
    · exact ⟨_, rfl⟩
    · exact ⟨_, rfl⟩
    · exact ⟨(fresh p t).rules, rfl⟩
  obtain ⟨r, e⟩ := this
  show Born t p (bare (brkRules t.sub (fresh p t)))
  rw [e]; exact ⟨rfl, rfl, rfl, rfl, rfl, rfl, rfl, rfl, rfl, rfl⟩

theorem Born.flown {t : Token} {p r : Record F} (h : Born t p r) (hp : Flown p) : Flown r := hp.congr h.speed h.altitude h.altitudeSi h.speedSi

theorem rules_point (t : Token) (p : Record F) : (bare ((Act.point t).newRec p)).rules = ruleI := by
  obtain ⟨la, lo, v, e⟩ := posHead_shape t (toIfr (fresh p t))
  show (bare (posHead t (toIfr (fresh p t)))).rules = _
  rw [e]; rfl

theorem put_push {a : Act} (hr : a.records = true) (hb : ∀ p : Record F, a.before p = p) (p : Record F) (rs : List (Record F)) :
    puts [a] (p :: rs) = bare (a.newRec p) :: p :: rs := by
  show (if a.records then _ else _) = _
  rw [if_pos hr, hb]

theorem put_push_re {a : Act} (hr : a.records = true) (hb : ∀ p : Record F, a.before p = p) (p : Record F) (rs : List (Record F)) :
    puts [a.re] (p :: rs) = bare (a.newRec p) :: p :: rs := by
  rw [← put_push (F := F) hr hb p rs]; exact re_put (F := F) a (p :: rs)

/-- Elements with nothing said about them. -/
theorem own_alone {r : Record F} (h1 : r.cruiseTo = []) (h2 : r.base ≠ .SPEED_VFR) (h3 : r.base ≠ .BREAK_START) (h4 : r.base ≠ .POINT) (h5 : r.base ≠ .C)
    (x : Option (Record F)) : ownWords r ++ aboutWords r x = [r.name] := by
  unfold ownWords aboutWords
  rw [if_neg (by simp [h1]), if_neg h2, if_neg h3, if_neg (by simp [h1, h4]), if_neg h5]; rfl

theorem own_c {r : Record F} (h1 : r.cruiseTo = []) (h2 : r.base = .C) (x : Option (Record F)) : ownWords r ++ aboutWords r x = r.name :: stayWords r x := by
  unfold ownWords aboutWords
  rw [if_neg (by simp [h1]), if_neg (by simp [h2]), if_neg (by simp [h2]), if_neg (by simp [h1, h2]), if_pos h2]; rfl

theorem own_point {r : Record F} (h1 : r.cruiseTo = []) (h2 : r.base = .POINT) (x : Option (Record F)) :
    ownWords r ++ aboutWords r x = r.name :: (levelWords r x ++ stayWords r x) := by
  unfold ownWords aboutWords
  rw [if_neg (by simp [h1]), if_neg (by simp [h2]), if_neg (by simp [h2]), if_pos (.inr h2)]; rfl

theorem own_cruise {r : Record F} (h1 : r.cruiseTo ≠ []) (x : Option (Record F)) :
    ownWords r ++ aboutWords r x = [py! "C", py! "/", r.name, py! "/", climbWord r.cruiseTo] ++ (levelWords r x ++ stayWords r x) := by
  unfold ownWords aboutWords
  rw [if_pos h1, if_pos (.inl h1)]

theorem own_brk {r : Record F} (h1 : r.cruiseTo = []) (h2 : r.base = .BREAK_START) (x : Option (Record F)) :
    ownWords r ++ aboutWords r x = r.name :: textWords r.breakText := by
  unfold ownWords aboutWords
  rw [if_neg (by simp [h1]), if_neg (by simp [h2]), if_pos h2, if_neg (by simp [h1, h2]), if_neg (by simp [h2])]; simp

theorem own_vfr {r : Record F} (h1 : r.cruiseTo = []) (h2 : r.base = .SPEED_VFR) (x : Option (Record F)) :
    ownWords r ++ aboutWords r x = (r.speed ++ py! "VFR") :: textWords r.breakText := by
  unfold ownWords aboutWords
  rw [if_neg (by simp [h1]), if_pos h2, if_neg (by simp [h1, h2]), if_neg (by simp [h2])]; simp

theorem vfr_no {r : Record F} (h : r.base ≠ .SPEED_VFR ∨ r.cruiseTo ≠ []) : isVfr (some r) = false := by
  unfold isVfr; rcases h with h | h <;> simp [h]

theorem ats_no {r : Record F} (h : r.base ≠ .ROUTE ∨ r.cruiseTo ≠ []) : isAts (some r) = false := by
  unfold isAts; rcases h with h | h <;> simp [h]

theorem vfr_yes {r : Record F} (h : r.base = .SPEED_VFR) (h' : r.cruiseTo = []) : isVfr (some r) = true := by unfold isVfr; simp [h, h']
theorem ats_yes {r : Record F} (h : r.base = .ROUTE) (h' : r.cruiseTo = []) : isAts (some r) = true := by unfold isAts; simp [h, h']

theorem no_text {q : Phase} {t : Token} (h : q.allows t = true) : ∀ r, q ≠ .text r := by rintro r rfl; cases h

/-! ### The cases -/

theorem says_last {q : Phase} {ts : List Token} {p : Record F} (hq : ∀ r, q ≠ .text r) (hg : Flown p) (he : Enters q p) : CanSay q ts [] p :=
  ⟨[], p, [], says_on (as' := []) hq hg he (fun _ => rfl) rfl (fun _ => rfl) (fun _ h => by cases h) (fun _ h => by cases h) (.stop q) (fun _ => rfl)⟩

theorem says_text_last {r : Str} {p : Record F} (hg : Flown p) : CanSay (.text r) [] [] p :=
  ⟨[], p, [], fun _ => rfl, rfl, hg, (fun _ h => by cases h), (fun h => by rcases h with h | h <;> cases h), ⟨[], .stop _, fun p' _ h => by rw [show p' = p from h]; rfl⟩,
    fun _ _ => ⟨rfl, fun _ _ _ _ => trivial⟩⟩

theorem says_star {q : Phase} {t : Token} {p : Record F} (hT : Typed t) (hF : TextOk t.text) (hg : Flown p) (he : Enters q p)
    (hq : q.allows t) (hb : t.base = .STAR ∨ (t.base = .SID_STAR ∧ q ≠ .adep)) : CanSay q [t] [.star t] p := by
  have e : routeWords [bare ((Act.star t).newRec p)] = [t.text] := by
    show ownWords _ ++ aboutWords _ none ++ [] = _
    rw [own_alone (by rfl) (by exact fun h => by cases h) (by exact fun h => by cases h) (by exact fun h => by cases h) (by exact fun h => by cases h)]; rfl
  have hr : tk t.text = t.re := tk_re hT
  refine ⟨[], p, [bare ((Act.star t).newRec p)], says_on (as' := [.star t.re]) (no_text hq) hg he ?_ ?_ ?_ ?_ ?_ ?_ ?_⟩
  · intro rs; exact put_push rfl (fun _ => rfl) p rs
  · exact vfr_no (.inl fun h => by cases h)
  · exact fun _ => ats_no (.inl fun h => by cases h)
  · rw [e]
    intro w hw hr'
    cases hw
    rw [hr] at hr'
    have : t.base = .ROUTE := hr'
    rcases hb with hb | ⟨hb, _⟩ <;> rw [hb] at this <;> cases this
  · rw [e]; intro w hw; rw [List.mem_singleton.1 hw]; exact hF
  · rw [e]
    show Run q [tk t.text] _
    rw [hr]
    exact .star (by rw [allows_re]; exact hq) hb
  · intro rs; exact put_push_re (a := .star t) rfl (fun _ => rfl) p rs

end F15
