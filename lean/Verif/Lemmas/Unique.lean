import Verif.Lemmas.Locate
import Mathlib.Tactic.Tauto
/-!
# The first fault of a field is determined by the field
-/

namespace F15
open Spec
open Classical

/-- The place and the message (`none`: a range error of the token there) of the first fault, as a function. Where there
is no fault the value does not matter. -/
noncomputable def faultPlace : Phase → List Token → Nat × Option Nat
  | _, [] => (0, none)
  | .text r, t :: ts =>
    if t.base = .TOO_LONG then (0, some 4)
    else if closes t r ∧ ¬ readOn t ts then
      match ts with
      | [] => (0, none)
      | p :: ts1 =>
        if t.sub = .IFR then
          match ts1 with
          | _ :: l :: ts2 =>
            if l.base = .SPEED_ALTITUDE then
              if PositionOk p then
                if LevelOk l.text then let a := faultPlace (.point (isFixed p)) ts2; (4 + a.1, a.2) else (3, some 40)
              else (1, none)
            else if l.base = .SPEED_VFR then let a := faultPlace (.text (py! "VFR")) ts2; (4 + a.1, a.2)
            else (1, some 22)
          | _ => (1, some 22)
        else if PositionOk p then let a := faultPlace (.point (isFixed p)) ts1; (2 + a.1, a.2) else (1, none)
    else let a := faultPlace (.text r) ts; (1 + a.1, a.2)
  | q, t :: ts =>
    if t.base = .SLASH ∧ ∃ f, q = .point f then
      match ts with
      | [] => (0, some 20)
      | l :: ts1 =>
        if l.base = .SPEED_ALTITUDE then
          if LevelOk l.text then let a := faultPlace q ts1; (2 + a.1, a.2) else (1, some 40)
        else if l.base = .SPEED_VFR then let a := faultPlace (.text (py! "VFR")) ts1; (2 + a.1, a.2)
        else (1, some (afterSlash l))
    else if q.allows t = false then (0, some (unexpected q t))
    else match t.base with
      | .POINT => if PositionOk t then let a := faultPlace (.point (isFixed t)) ts; (1 + a.1, a.2) else (0, none)
      | .TRUNCATE => (1, some 19)
      | .STAR => (1, some 34)
      | .SID_STAR => if q = .adep then let a := faultPlace .sid ts; (1 + a.1, a.2) else (1, some 34)
      | .SID => let a := faultPlace .sid ts; (1 + a.1, a.2)
      | .DCT => let a := faultPlace .dct ts; (1 + a.1, a.2)
      | .ROUTE => let a := faultPlace .route ts; (1 + a.1, a.2)
      | .BREAK_START => let a := faultPlace (.text (rulesOfBreak t.sub)) ts; (1 + a.1, a.2)
      | .C =>
        if ts.head?.map (·.base) = some .SLASH then
          match ts with
          | [] => (0, none)
          | [_] => (1, some 52)
          | _ :: p :: ts2 =>
            if PositionOk p then
              match ts2 with
              | [] => (2, some 27)
              | s' :: ts3 =>
                if s'.base = .SLASH then
                  match ts3 with
                  | [] => (2, some 28)
                  | l :: ts4 =>
                    if ClimbLevels l then let a := faultPlace (.point (isFixed p)) ts4; (5 + a.1, a.2)
                    else if l.base = .SPEED_ALTITUDE_ALTITUDE ∨ l.base = .SPEED_ALTITUDE_PLUS then (4, some 40)
                    else (4, some 29)
                else (3, some 26)
            else (2, none)
        else let a := faultPlace .climb ts; (1 + a.1, a.2)
      | .STAY =>
        match ts with
        | [] => (0, some 35)
        | [s] => if s.base = .SLASH then (1, some 37) else (1, some 36)
        | s :: m :: ts2 =>
          if s.base = .SLASH then
            if m.base = .STAY_TIME then let a := faultPlace .stay ts2; (3 + a.1, a.2) else (2, some 38)
          else (1, some 36)
      | _ => (0, none)

/-- The part of `faultPlace` for an allowed token. -/
theorem faultPlace_allowed {q : Phase} {t : Token} {ts : List Token} (hq : q.allows t = true) :
    faultPlace q (t :: ts) = match t.base with
    | .POINT => if PositionOk t then let a := faultPlace (.point (isFixed t)) ts; (1 + a.1, a.2) else (0, none)
      | .TRUNCATE => (1, some 19)
      | .STAR => (1, some 34)
      | .SID_STAR => if q = .adep then let a := faultPlace .sid ts; (1 + a.1, a.2) else (1, some 34)
      | .SID => let a := faultPlace .sid ts; (1 + a.1, a.2)
      | .DCT => let a := faultPlace .dct ts; (1 + a.1, a.2)
      | .ROUTE => let a := faultPlace .route ts; (1 + a.1, a.2)
      | .BREAK_START => let a := faultPlace (.text (rulesOfBreak t.sub)) ts; (1 + a.1, a.2)
      | .C =>
        if ts.head?.map (·.base) = some .SLASH then
          match ts with
          | [] => (0, none)
          | [_] => (1, some 52)
          | _ :: p :: ts2 =>
            if PositionOk p then
              match ts2 with
              | [] => (2, some 27)
              | s' :: ts3 =>
                if s'.base = .SLASH then
                  match ts3 with
                  | [] => (2, some 28)
                  | l :: ts4 =>
                    if ClimbLevels l then let a := faultPlace (.point (isFixed p)) ts4; (5 + a.1, a.2)
                    else if l.base = .SPEED_ALTITUDE_ALTITUDE ∨ l.base = .SPEED_ALTITUDE_PLUS then (4, some 40)
                    else (4, some 29)
                else (3, some 26)
            else (2, none)
        else let a := faultPlace .climb ts; (1 + a.1, a.2)
      | .STAY =>
        match ts with
        | [] => (0, some 35)
        | [s] => if s.base = .SLASH then (1, some 37) else (1, some 36)
        | s :: m :: ts2 =>
          if s.base = .SLASH then
            if m.base = .STAY_TIME then let a := faultPlace .stay ts2; (3 + a.1, a.2) else (2, some 38)
          else (1, some 36)
      | _ => (0, none) := by
  have hs : t.base ≠ .SLASH := by
    intro h
    cases q <;> simp [Phase.allows, h] at hq
  cases q with
  | text r => simp [Phase.allows] at hq
  | _ =>
    conv => lhs; unfold faultPlace
    simp only [hs, false_and, if_false, hq, Bool.true_eq_false, reduceCtorEq]

theorem faultPlace_not {q : Phase} {t : Token} {ts : List Token} (hq : q.allows t = false) (ht : ∀ r, q ≠ .text r)
    (hs : ∀ f, q = .point f → t.base ≠ .SLASH) : faultPlace q (t :: ts) = (0, some (unexpected q t)) := by
  have hs' : ¬ (t.base = .SLASH ∧ ∃ f, q = .point f) := fun ⟨a, f, b⟩ => hs f b a
  cases q with
  | text r => exact absurd rfl (ht r)
  | _ => unfold faultPlace; rw [if_neg hs', if_pos hq]

theorem faultPlace_slash {f : Bool} {t : Token} {ts : List Token} (hs : t.base = .SLASH) :
    faultPlace (.point f) (t :: ts) = match ts with
      | [] => (0, some 20)
      | l :: ts1 =>
        if l.base = .SPEED_ALTITUDE then
          if LevelOk l.text then let a := faultPlace (.point f) ts1; (2 + a.1, a.2) else (1, some 40)
        else if l.base = .SPEED_VFR then let a := faultPlace (.text (py! "VFR")) ts1; (2 + a.1, a.2)
        else (1, some (afterSlash l)) := by
  conv => lhs; unfold faultPlace
  rw [if_pos ⟨hs, f, rfl⟩]

theorem faultPlace_close {r : Str} {t p : Token} {ts1 : List Token} (hb : t.base ≠ .TOO_LONG) (hc : closes t r)
    (hr : ¬ readOn t (p :: ts1)) : faultPlace (.text r) (t :: p :: ts1) =
        if t.sub = .IFR then
          match ts1 with
          | _ :: l :: ts2 =>
            if l.base = .SPEED_ALTITUDE then
              if PositionOk p then
                if LevelOk l.text then let a := faultPlace (.point (isFixed p)) ts2; (4 + a.1, a.2) else (3, some 40)
              else (1, none)
            else if l.base = .SPEED_VFR then let a := faultPlace (.text (py! "VFR")) ts2; (4 + a.1, a.2)
            else (1, some 22)
          | _ => (1, some 22)
        else if PositionOk p then let a := faultPlace (.point (isFixed p)) ts1; (2 + a.1, a.2) else (1, none) := by
  conv => lhs; unfold faultPlace
  rw [if_neg hb, if_pos ⟨hc, hr⟩]

theorem faultPlace_word {r : Str} {t : Token} {ts : List Token} (hb : t.base ≠ .TOO_LONG) (hc : closes t r → readOn t ts) :
    faultPlace (.text r) (t :: ts) = (1 + (faultPlace (.text r) ts).1, (faultPlace (.text r) ts).2) := by
  conv => lhs; unfold faultPlace
  rw [if_neg hb, if_neg (fun ⟨a, b⟩ => b (hc a))]

set_option maxHeartbeats 4000000 in
theorem faultPlace_fault {q : Phase} {pre post : List Token} {t : Token} {n : Nat} (h : Fault q pre t post n)
    (hT : ∀ y ∈ pre ++ t :: post, assignSyntax y = y) :
    (faultPlace q (pre ++ t :: post)).1 = pre.length ∧
      ((faultPlace q (pre ++ t :: post)).2 = some n ∨
        ((faultPlace q (pre ++ t :: post)).2 = none ∧ FirstRangeFault t.sub t.text n)) := by
  induction h with
  | here hq ht hs => simp [faultPlace_not hq ht hs]
  | @position q t post n hq hb hn =>
    have := not_range (hT t (by simp)) hn.1
    simp [faultPlace_allowed hq, hb, this, hn]
  | truncate hq hb => simp [faultPlace_allowed hq, hb]
  | star hq hb => rcases hb with hb | ⟨hb, hq'⟩ <;> simp [faultPlace_allowed hq, hb, *]
  | @sid t pre x post n hb h ih =>
    have hq : Phase.adep.allows t = true := by rcases hb with hb | hb <;> simp [Phase.allows, hb]
    have := ih (fun y hy => hT y (by simp at hy ⊢; tauto))
    rcases hb with hb | hb <;> simp [faultPlace_allowed hq, hb, this] <;> omega
  | dct hq hb h ih =>
    have := ih (fun y hy => hT y (by simp at hy ⊢; tauto))
    simp [faultPlace_allowed hq, hb, this]; omega
  | route hq hb h ih =>
    have := ih (fun y hy => hT y (by simp at hy ⊢; tauto))
    simp [faultPlace_allowed hq, hb, this]; omega
  | point hq hb hn h ih =>
    have := ih (fun y hy => hT y (by simp at hy ⊢; tauto))
    simp [faultPlace_allowed hq, hb, hn, this]; omega
  | break_ hq hb h ih =>
    have := ih (fun y hy => hT y (by simp at hy ⊢; tauto))
    simp [faultPlace_allowed hq, hb, this]; omega
  | @climb q t pre x post n hq hb hh h ih =>
    have := ih (fun y hy => hT y (by simp at hy ⊢; tauto))
    have hh' : (pre ++ x :: post).head?.map (·.base) ≠ some .SLASH := by
      cases pre <;> simpa using hh
    rw [List.cons_append, faultPlace_allowed hq]
    simp only [hb, if_neg hh']
    simp [this]; omega
  | climbEnd hq hb hs => simp [faultPlace_allowed hq, hb, hs]
  | @cruisePosition q t s p post n hq hb hs hn =>
    have := not_range (hT p (by simp)) hn.1
    simp [faultPlace_allowed hq, hb, hs, this, hn]
  | cruiseEnd hq hb hs hp => simp [faultPlace_allowed hq, hb, hs, hp]
  | cruiseSlash hq hb hs hp hx => simp [faultPlace_allowed hq, hb, hs, hp, hx]
  | cruiseLevelsEnd hq hb hs hp hs' => simp [faultPlace_allowed hq, hb, hs, hp, hs']
  | @cruiseLevels q t s p s' l post hq hb hs hp hs' h1 h2 =>
    have : ¬ ClimbLevels l := by unfold ClimbLevels; tauto
    simp [faultPlace_allowed hq, hb, hs, hp, hs', this, h1, h2]
  | @cruiseStep q t s p s' l post hq hb hs hp hs' hl =>
    have : ¬ ClimbLevels l := by
      unfold ClimbLevels
      rcases hl with ⟨h1, h2⟩ | ⟨h1, h2⟩ <;> simp [h1, h2]
    have h' : l.base = .SPEED_ALTITUDE_ALTITUDE ∨ l.base = .SPEED_ALTITUDE_PLUS := by tauto
    simp [faultPlace_allowed hq, hb, hs, hp, hs', this, h']
  | cruise hq hb hs hp hs' hl h ih =>
    have := ih (fun y hy => hT y (by simp at hy ⊢; tauto))
    simp [faultPlace_allowed hq, hb, hs, hp, hs', hl, this]; omega
  | stayEnd hq hb => simp [faultPlace_allowed hq, hb]
  | @staySlash q t x post hq hb hx => cases post <;> simp [faultPlace_allowed hq, hb, hx]
  | stayTimeEnd hq hb hs => simp [faultPlace_allowed hq, hb, hs]
  | stayTime hq hb hs hx => simp [faultPlace_allowed hq, hb, hs, hx]
  | stay hq hb hs hm h ih =>
    have := ih (fun y hy => hT y (by simp at hy ⊢; tauto))
    simp [faultPlace_allowed hq, hb, hs, hm, this]; omega
  | slashEnd hs => simp [faultPlace_slash hs]
  | slash hs h1 h2 => simp [faultPlace_slash hs, h1, h2]
  | levelStep hs hb hl => simp [faultPlace_slash hs, hb, hl]
  | level hs hb hl h ih =>
    have := ih (fun y hy => hT y (by simp at hy ⊢; tauto))
    simp [faultPlace_slash hs, hb, hl, this]; omega
  | vfr hs hb h ih =>
    have := ih (fun y hy => hT y (by simp at hy ⊢; tauto))
    simp [faultPlace_slash hs, hb, this]; omega
  | tooLong hb => unfold faultPlace; simp [hb]
  | word hb hc h ih =>
    have := ih (fun y hy => hT y (by simp at hy ⊢; tauto))
    simp [faultPlace_word hb hc, this]; omega
  | @resumePosition r t p post n hc hi hb hp hn =>
    have := not_range (hT p (by simp)) hn.1
    simp [faultPlace_close (p := p) (ts1 := post) hb hc (by simp [readOn, hp, hi]), hi, this, hn]
  | @resume r t p pre x post n hc hi hb hp hn h ih =>
    have := ih (fun y hy => hT y (by simp at hy ⊢; tauto))
    simp [faultPlace_close (p := p) (ts1 := pre ++ x :: post) hb hc (by simp [readOn, hp, hi]), hi, hn, this]; omega
  | @ifrEnd r t p hc hi hb hp =>
    simp [faultPlace_close (p := p) (ts1 := []) hb hc (by simp [readOn, hp]), hi]
  | @ifrSlashEnd r t p s hc hi hb hp hs =>
    simp [faultPlace_close (p := p) (ts1 := [s]) hb hc (by simp [readOn, hp, hs]), hi]
  | @ifrSlash r t p s x post hc hi hb hp hs h1 h2 =>
    simp [faultPlace_close (p := p) (ts1 := s :: x :: post) hb hc (by simp [readOn, hp, hs]), hi, h1, h2]
  | @ifrPosition r t p s l post n hc hi hb hp hs hl hn =>
    have := not_range (hT p (by simp)) hn.1
    simp [faultPlace_close (p := p) (ts1 := s :: l :: post) hb hc (by simp [readOn, hp, hs]), hi, hl, this, hn]
  | @ifrStep r t p s l post hc hi hb hp hn hs hl hk =>
    simp [faultPlace_close (p := p) (ts1 := s :: l :: post) hb hc (by simp [readOn, hp, hs]), hi, hl, hn, hk]
  | @resumeIfr r t p s l pre x post n hc hi hb hp hn hs hl hk h ih =>
    have := ih (fun y hy => hT y (by simp at hy ⊢; tauto))
    simp [faultPlace_close (p := p) (ts1 := s :: l :: (pre ++ x :: post)) hb hc (by simp [readOn, hp, hs]), hi, hl, hn, hk, this]; omega
  | @resumeVfr r t p s l pre x post n hc hi hb hp hs hl h ih =>
    have := ih (fun y hy => hT y (by simp at hy ⊢; tauto))
    simp [faultPlace_close (p := p) (ts1 := s :: l :: (pre ++ x :: post)) hb hc (by simp [readOn, hp, hs]), hi, hl, this]; omega

theorem append_at {pre pre' post post' : List Token} {t t' : Token} (hl : pre.length = pre'.length)
    (h : pre ++ t :: post = pre' ++ t' :: post') : pre = pre' ∧ t = t' ∧ post = post' := by
  obtain ⟨h1, h2⟩ := List.append_inj h hl
  cases h2
  exact ⟨h1, rfl, rfl⟩

theorem fault_unique {q : Phase} {pre pre' post post' : List Token} {t t' : Token} {n n' : Nat} (h : Fault q pre t post n)
    (h' : Fault q pre' t' post' n') (hT : ∀ y ∈ pre ++ t :: post, assignSyntax y = y)
    (he : pre ++ t :: post = pre' ++ t' :: post') :
    pre = pre' ∧ t = t' ∧ post = post' ∧ n = n' := by
  obtain ⟨h1, h2⟩ := faultPlace_fault h hT
  obtain ⟨h3, h4⟩ := faultPlace_fault h' (by rw [← he]; exact hT)
  rw [← he] at h3 h4
  obtain ⟨rfl, rfl, rfl⟩ := append_at (h1.symm.trans h3) he
  refine ⟨rfl, rfl, rfl, ?_⟩
  rcases h2 with h2 | ⟨h2, h5⟩ <;> rcases h4 with h4 | ⟨h4, h6⟩ <;> rw [h2] at h4
  · injection h4
  · cases h4
  · cases h4
  · exact Nat.le_antisymm (h5.2 _ h6.1) (h6.2 _ h5.1)

end F15
