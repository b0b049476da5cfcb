import Verif.Lemmas.Write4
import Verif.Props.Sequence
/-!
# Reading what is written from the elements: the whole field
-/

namespace F15
open Spec

set_option linter.unusedSectionVars false
variable {F : Type} [PyFloat F]

/-! ### The writer does not look at indices and courses -/

theorem vfr_bare (o : Option (Record F)) : isVfr (o.map bare) = isVfr o := by cases o <;> rfl
theorem ats_bare (o : Option (Record F)) : isAts (o.map bare) = isAts o := by cases o <;> rfl

theorem about_bare (r : Record F) (o : Option (Record F)) : aboutWords (bare r) (o.map bare) = aboutWords r o := by
  unfold aboutWords levelWords stayWords
  rw [vfr_bare, ats_bare]; rfl

theorem route_bare (l : List (Record F)) : routeWords (l.map bare) = routeWords l := by
  induction l with
  | nil => rfl
  | cons r l ih =>
    show ownWords (bare r) ++ aboutWords (bare r) (l.map bare).head? ++ routeWords (l.map bare) = ownWords r ++ aboutWords r l.head? ++ routeWords l
    rw [ih, List.head?_map, about_bare]; rfl

theorem written_bare (l : List (Record F)) : written (l.map bare) = written l := by
  cases l with
  | nil => rfl
  | cons r l =>
    show (if isVfr ((l.map bare).dropLast).head? then _ else _) ++ (if (l.map bare).dropLast = [] then _ else routeWords _) = _
    rw [← List.map_dropLast, List.head?_map, vfr_bare, route_bare]
    simp only [List.map_eq_nil_iff]
    rfl

/-! ### The end of the parse -/

theorem fin_bare {e e' : Ers F} (h : e.recs.map bare = e'.recs.map bare) :
    (finErs e).elements.map bare = (finErs e').elements.map bare ∧ (finErs e).derived = (finErs e').derived := by
  have hr : e.recs.map (·.rules) = e'.recs.map (·.rules) := by
    have := congrArg (List.map fun r : Record F => r.rules) h
    rw [List.map_map, List.map_map] at this
    exact this
  have h1 : e.recs.head?.map (·.rules) = e'.recs.head?.map (·.rules) := by rw [← List.head?_map, hr, List.head?_map]
  have h2 : oldestRules e.recs = oldestRules e'.recs := by
    unfold oldestRules
    rw [← List.getLast?_map, hr, List.getLast?_map]
  constructor
  · rw [fin_elements, fin_elements, List.map_append, List.map_append, h1]
    unfold Ers.elements
    rw [List.map_reverse, h, List.map_reverse]
  · unfold finErs
    dsimp only
    rw [h2, h1, List.map_reverse, List.map_reverse, List.map_cons, List.map_cons, hr]

theorem post_bare (t : Token) (e : Ers F) :
    (post t e).recs.map bare = if t.base = .SPEED_VFR then mapOldest toVfr (e.recs.map bare) else e.recs.map bare := by
  unfold post
  split
  · show (mapOldest toVfr e.recs).map bare = _
    unfold mapOldest
    rw [List.map_reverse, ← List.map_reverse (f := bare) (l := e.recs)]
    congr 1
    cases e.recs.reverse <;> rfl
  · rfl

theorem new_bare : (Ers.new : Ers F).recs.map bare = [Record.new (py! "ADEP") 0 0 .POINT .PRP_AERO] := rfl

/-- The final elements, without indices and courses. -/
theorem final_bare (t : Token) (as : List Act) :
    (finErs (post t (runs as Ers.new : Ers F))).elements.map bare =
      (let l := if t.base = .SPEED_VFR then mapOldest toVfr (puts as [Record.new (py! "ADEP") 0 0 .POINT .PRP_AERO]) else puts as [Record.new (py! "ADEP") 0 0 .POINT .PRP_AERO]
       l.reverse ++ [adesRec ((l.head?.map (·.rules)).getD [])]) := by
  have h : (post t (runs as Ers.new : Ers F)).recs.map bare =
      if t.base = .SPEED_VFR then mapOldest toVfr (puts as [Record.new (py! "ADEP") 0 0 .POINT .PRP_AERO]) else puts as [Record.new (py! "ADEP") 0 0 .POINT .PRP_AERO] := by
    rw [post_bare, runs_recs, bare_runs as _ new_ne, new_bare]
  dsimp only
  rw [← h, fin_elements, List.map_append]
  unfold Ers.elements
  rw [List.map_reverse, List.head?_map, Option.map_map]
  rfl

/-- What is written of the elements is a field 15 with the same effect. -/
theorem written_run {t : Token} {rest : List Token} {as : List Act} (h : SentRun (t :: rest) as) (hT : ∀ x ∈ t :: rest, Typed x)
    (hF : ∀ x ∈ t :: rest, TextOk x.text) :
    ∃ W as', written (finErs (post t (runs as Ers.new : Ers F))).elements = t.text :: W ∧ (∀ w ∈ W, TextOk w) ∧ SentRun (t.re :: W.map tk) as' ∧
      puts as' [(Record.new (py! "ADEP") 0 0 .POINT .PRP_AERO : Record F)] = puts as [Record.new (py! "ADEP") 0 0 .POINT .PRP_AERO] := by
  rw [← written_bare, final_bare]
  generalize ha : (Record.new (py! "ADEP") 0 0 .POINT .PRP_AERO : Record F) = a
  cases h with
  | @ifr _ _ as hb hl hne h =>
    obtain ⟨f1, f2, f3⟩ := level_facts (hT t (by simp)) hb
    have hg : Flown ((Act.level t).tweak a) := ⟨f1, f2, gran_iff.1 (hl trivial), rfl, rfl⟩
    obtain ⟨ws, p1, N, S⟩ := says h (fun x hx => hT x (by simp [hx])) (fun x hx => hF x (by simp [hx])) _ hg trivial
    have e : p1 = (Act.level t).tweak a := S.changes
    have hp : puts (.level t :: as) [a] = N.reverse ++ [p1] := by rw [puts_cons, put_level]; exact S.puts_eq []
    obtain ⟨hv, _⟩ := S.heads (.inr rfl)
    have ho : out .adep ws p1 N = routeWords N := rfl
    have hf := S.fine
    obtain ⟨as', r1, r2⟩ := S.run
    rw [ho] at hf r1
    dsimp only
    rw [if_neg (by rw [hb]; decide), hp, List.reverse_append, List.reverse_reverse]
    have hw : ∀ x, written ([p1].reverse ++ N ++ [x]) = t.text :: if N = [] then [py! "T"] else routeWords N := by
      intro x
      have hd : (N ++ [x]).dropLast = N := by simp
      show (if isVfr ((N ++ [x]).dropLast).head? then _ else [p1.speed ++ p1.altitude]) ++ (if (N ++ [x]).dropLast = [] then _ else routeWords (N ++ [x]).dropLast) = _
      rw [hd, hv, e, if_neg (by decide), f3]
      rfl
    rw [hw]
    have hres : ∃ as', Run .adep ((if N = [] then [py! "T"] else routeWords N).map tk) as' ∧ puts as' [p1] = N.reverse ++ [p1] := by
      by_cases h0 : N = []
      · subst h0
        refine ⟨[], ?_, rfl⟩
        exact .truncate (by decide +kernel) (by decide +kernel)
      · rw [if_neg h0]
        exact ⟨as', r1, r2 p1 [] e⟩
    have hwn : (if N = [] then [py! "T"] else routeWords N) ≠ [] := by
      split
      · simp
      · rename_i h0
        cases N with
        | nil => exact absurd rfl h0
        | cons r N =>
          show ownWords r ++ _ ++ _ ≠ []
          have : ownWords r ≠ [] := by
            unfold ownWords; repeat' split
            all_goals simp
          simp [this]
    obtain ⟨as2, q1, q2⟩ := hres
    refine ⟨_, .level t.re :: as2, rfl, ?_, .ifr hb hl (by simpa using hwn) q1, ?_⟩
    · intro w hw
      split at hw
      · rw [List.mem_singleton.1 hw]; exact plain_fine (by decide) (by decide)
      · exact hf w hw
    · rw [puts_cons, show Act.level t.re = (Act.level t).re from rfl, re_put, put_level, ← e, q2]
  | @vfr _ _ as hb h =>
    obtain ⟨g1, g2⟩ := vfr_flown (hT t (by simp)) hb a
    have hS := says h (fun x hx => hT x (by simp [hx])) (fun x hx => hF x (by simp [hx])) _ g1 trivial
    obtain ⟨_, v, N, as', hv, hp, hf, W, hW, r1, r2⟩ := says_vfr (hT t (by simp)) hb hS
    have h0 : ∀ as, puts (.vfr t :: as) [a] = puts as (bare ((Act.vfr t).newRec a) :: [(Act.vfr t).before a]) := fun _ => rfl
    refine ⟨W, .vfr t.re :: as', ?_, fun w hw => hf w (by rw [hW]; simp [hw]), .vfr hb r1, ?_⟩
    · dsimp only
      rw [if_pos hb, h0, hp]
      have hm : (mapOldest toVfr (N.reverse ++ [v, (Act.vfr t).before a])).reverse = toVfr ((Act.vfr t).before a) :: v :: N := by
        unfold mapOldest
        simp [mapHead]
      rw [hm]
      generalize (adesRec _ : Record F) = x
      have hd : ((v :: N) ++ [x]).dropLast = v :: N := by
        rw [List.dropLast_concat]
      show (if isVfr (((v :: N) ++ [x]).dropLast).head? then [] else _) ++ (if ((v :: N) ++ [x]).dropLast = [] then _ else routeWords ((v :: N) ++ [x]).dropLast) = _
      rw [hd, if_pos (show isVfr (v :: N).head? = true from hv), if_neg (by simp), hW]; rfl
    · rw [h0, hp, puts_cons, show Act.vfr t.re = (Act.vfr t).re from rfl, re_put]
      exact r2 _

end F15
