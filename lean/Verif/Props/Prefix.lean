import Verif.Lemmas.Prefix
import Verif.Lemmas.Noise4
import Verif.Spec.Prefix
import Verif.Props.Depth
import Verif.Props.Grammar
import Verif.Props.Recover
/-!
# C65: every beginning of an accepted field 15 is accepted
-/

namespace F15
open Spec

set_option linter.unusedSectionVars false
variable {F : Type} [PyFloat F]

theorem oldest_all2 {l l' : List (Record F)} (h : All2 KeepPos l l') :
    All2 KeepPos (mapOldest toVfr l) (mapOldest toVfr l') := by
  induction h with
  | nil => exact .nil
  | cons h t ih =>
    cases t with
    | nil =>
      refine .cons ?_ .nil
      unfold KeepPos at *
      unfold toVfr Record.setRules
      rw [h]
    | cons h' t' =>
      rw [mapOldest_cons, mapOldest_cons]
      exact .cons h ih

theorem oldest_grown {r : Record F} {rs l : List (Record F)} (h : Grown r rs l) :
    ∃ r1 rs1, mapOldest toVfr (r :: rs) = r1 :: rs1 ∧ Grown r1 rs1 (mapOldest toVfr l) := by
  obtain ⟨new, r', rs', rfl, h1, h2⟩ := h
  have hn : ∀ (new : List (Record F)) {k : List (Record F)}, k ≠ [] → mapOldest toVfr (new ++ k) = new ++ mapOldest toVfr k := by
    intro new k hk
    induction new with
    | nil => rfl
    | cons n new ih => rw [List.cons_append, mapOldest_consN _ _ (by simp [hk]), ih]; rfl
  rw [hn new (by simp)]
  cases h2 with
  | nil => exact ⟨_, _, rfl, new, _, _, rfl, h1, .nil⟩
  | cons k1 k2 =>
    rw [mapOldest_cons, mapOldest_cons]
    exact ⟨_, _, rfl, new, _, _, rfl, h1, oldest_all2 (.cons k1 k2)⟩

theorem post_grown (t : Token) {r : Record F} {rs : List (Record F)} {e0 e : Ers F} (h0 : e0.recs = r :: rs) (h : Grown r rs e.recs) :
    ∃ r1 rs1, (post t e0).recs = r1 :: rs1 ∧ Grown r1 rs1 (post t e).recs := by
  unfold post
  split
  · show ∃ r1 rs1, mapOldest toVfr e0.recs = _ ∧ Grown r1 rs1 (mapOldest toVfr e.recs)
    rw [h0]
    exact oldest_grown h
  · exact ⟨r, rs, h0, h⟩

theorem course_of_all2 {l l' : List (Record F)} (h : All2 KeepPos l l') : AllSameButCourse l.reverse l'.reverse := by
  have hlen := h.length
  refine ⟨by simp [hlen], fun i a b ha hb => ?_⟩
  have key : ∀ (l l' : List (Record F)), All2 KeepPos l l' → ∀ (j : Nat) (a b : Record F), l[j]? = some a → l'[j]? = some b → KeepPos a b := by
    intro l l' h
    induction h with
    | nil => intro j a b h; simp at h
    | cons h _ ih =>
      intro j a b ha hb
      cases j with
      | zero => simp at ha hb; subst ha hb; exact h
      | succ j => exact ih j a b (by simpa using ha) (by simpa using hb)
  have hi : i < l.length := by
    have := (List.getElem?_eq_some_iff.1 ha).1
    simpa using this
  rw [List.getElem?_reverse hi] at ha
  rw [List.getElem?_reverse (by omega), ← hlen] at hb
  exact key l l' h _ a b ha hb

/-- The cut, on classified tokens. -/
theorem cut_typed {u v : List Token} (h : CleanCut u v) : CutAt (u.map assignSyntax) (v.map assignSyntax) := by
  have hk : ∀ t : Token, (assignSyntax t).base ≠ .TOO_LONG → getTokenType t.text = ((assignSyntax t).base, (assignSyntax t).sub) := by
    intro t ht
    have := typed_types (typed_assign t) ht
    rwa [assign_text] at this
  have hs : ∀ t : Token, (assignSyntax t).base = .SLASH → t.text = py! "/" := by
    intro t ht
    have := hk t (by rw [ht]; decide)
    exact (c10_keywords t.text).1.1 (by rw [this]; exact ht)
  have hi : ∀ t : Token, (assignSyntax t).sub = .IFR → t.text = py! "IFR" := by
    intro t ht
    have hb : (assignSyntax t).base = .BREAK_END :=
      closes_is_end (typed_assign t) (r := py! "VFR") (.inl ⟨ht, rfl⟩)
    have := hk t (by rw [hb]; decide)
    exact (c10_keywords t.text).2.2.2.2.2.2.2.2.2.1.1 (by rw [this, hb, ht])
  refine ⟨fun t ht => ?_, fun t ht => ?_, fun w x p hu hx => ?_⟩
  · rw [List.getLast?_map] at ht
    obtain ⟨y, hy, rfl⟩ := Option.map_eq_some_iff.1 ht
    exact fun hb => h.1 y hy (hs y hb)
  · rw [List.head?_map] at ht
    obtain ⟨y, hy, rfl⟩ := Option.map_eq_some_iff.1 ht
    exact fun hb => h.2.1 y hy (hs y hb)
  · obtain ⟨a, b, rfl, rfl, h2⟩ := List.map_eq_append_iff.1 hu
    obtain ⟨y, b', rfl, rfl, h3⟩ := List.map_eq_cons_iff.1 h2
    obtain ⟨z, b'', rfl, rfl, h4⟩ := List.map_eq_cons_iff.1 h3
    obtain rfl := List.map_eq_nil_iff.1 h4
    exact h.2.2 a y z rfl (hi y hx)

/-- **C65** A field 15 `u ++ v` is accepted, and is cut beside no slash and not right behind IFR and a point; `u` is more
than the initial SPEED/LEVEL. Then `u` alone is accepted, and extracts the elements that the whole extracts from those words: all
but the last of them are the same but for bearing and distance to the next, the last has the same name, indices, types and position
(its level, speed or break text may still grow with later words), and ADES follows. -/
theorem c65 {frames : Nat} {u v : List Token} {e : Ers F} (hu : EnoughWords u) (hc : CleanCut u v) (hf : 4 * u.length ≤ frames)
    (h : parseF15 frames (Ers.new : Ers F) ⟨u ++ v, 0⟩ = .ok (true, e)) :
    ∃ e' past r ades past' r' later, parseF15 frames (Ers.new : Ers F) ⟨u, 0⟩ = .ok (true, e') ∧
      e'.elements = past ++ [r, ades] ∧ e.elements = past' ++ r' :: later ∧ later ≠ [] ∧
      AllSameButCourse past past' ∧ SameElement r r' ∧ Placeholder (py! "ADES") ades := by
  rw [parse_eq] at h
  obtain ⟨t, rest, bs, hat, hs, rfl⟩ := accepted (F := F) new_len rfl (fun x hx => typed_map hx) h
  dsimp only at hat hs
  rw [List.map_append] at hat hs
  have hcut := cut_typed hc
  cases hu' : u.map assignSyntax with
  | nil =>
    exfalso
    obtain rfl := List.map_eq_nil_iff.1 hu'
    rcases hu with hu | ⟨_, hu, _⟩
    · simp at hu
    · cases hu
  | cons t' us =>
    rw [hu'] at hat hs hcut
    simp only [List.cons_append, List.cons.injEq] at hat
    obtain ⟨rfl, rfl⟩ := hat
    obtain ⟨bs, rfl, h1, h2, hb⟩ := sentRun_start (rest := us ++ v.map assignSyntax) hs
    obtain ⟨as, cs, rfl, h3⟩ := run_prefix h1 rfl hcut.tail
    have hsent : SentRun (t' :: us) (startAct t' :: as) := by
      unfold startAct startPhase at *
      rcases hb with hb | hb
      · rw [if_pos hb] at h3 ⊢
        exact .vfr hb h3
      · have hn : ¬ t'.base = .SPEED_VFR := by rw [hb]; decide
        rw [if_neg hn] at h3 h2 ⊢
        refine .ifr hb (fun _ => h2) ?_ h3
        rintro rfl
        have hl := congrArg List.length hu'
        simp only [List.length_map, List.length_cons, List.length_nil] at hl
        rcases hu with hu | ⟨x, rfl, hx⟩
        · omega
        · simp only [List.map_cons, List.map_nil, List.cons.injEq, and_true] at hu'
          rw [hu'] at hx; exact hn hx
    have hTu : ∀ x ∈ t' :: us, Typed x := by
      intro x hx; rw [← hu'] at hx; exact typed_map hx
    obtain ⟨n, t2, hh, hpar⟩ := sentence_parses (F := F) new_len rfl hTu hsent
    obtain rfl := Option.some.inj hh
    obtain ⟨r, rs, h0⟩ := List.exists_cons_of_ne_nil (runs_ne (startAct t' :: as) (Ers.new : Ers F) new_ne)
    have hsplit : runs (startAct t' :: (as ++ cs)) (Ers.new : Ers F) = runs cs (runs (startAct t' :: as) Ers.new) := by
      unfold runs
      rw [← List.cons_append, List.foldl_append]
    have hg : Grown r rs (runs (startAct t' :: (as ++ cs)) (Ers.new : Ers F)).recs := by
      rw [hsplit]
      exact grown_runs cs ⟨[], r, rs, h0, sameEl_refl r, All2.refl KeepPos.refl rs⟩
    obtain ⟨r1, rs1, k1, new, r', rs', k2, k3, k4⟩ := post_grown t' h0 hg
    have fin : ∀ x : Ers F, (finErs x).elements = x.recs.reverse ++ [adesRec ((x.recs.head?.map (·.rules)).getD [])] := by
      intro x
      show (List.reverse (adesRec _ :: x.recs)) = _
      rw [List.reverse_cons]
    obtain ⟨a1, ha1⟩ : ∃ a, a = (adesRec (((post t' (runs (startAct t' :: as) (Ers.new : Ers F))).recs.head?.map (·.rules)).getD []) : Record F) := ⟨_, rfl⟩
    obtain ⟨a2, ha2⟩ : ∃ a, a = (adesRec (((post t' (runs (startAct t' :: (as ++ cs)) (Ers.new : Ers F))).recs.head?.map (·.rules)).getD []) : Record F) := ⟨_, rfl⟩
    refine ⟨finErs (post t' (runs (startAct t' :: as) Ers.new)), rs1.reverse, r1, a1, rs'.reverse, r', new.reverse ++ [a2],
      ?_, ?_, ?_, by simp, course_of_all2 k4, k3, ?_⟩
    · rw [← hu', ← parse_eq (tokens := ⟨u, 0⟩)] at hpar
      have hne' : (Ers.new : Ers F).elements ≠ [] := by simp [Ers.elements, new_ne]
      rcases Nat.le_total n frames with hle | hle
      · rw [c16_same hle _ _ (by rw [hpar]; intro h; cases h), hpar]
      · rw [← c16_same hle _ _ (c16_enough hne' ⟨u, 0⟩ hf), hpar]
    · rw [fin, ← ha1, k1]; simp
    · rw [fin, ← ha2, k2]; simp
    · rw [ha1]; exact ⟨rfl, rfl, rfl, rfl, rfl⟩

/-- **C65** On texts: an accepted field 15 is cut at a separator. -/
theorem c65_text {frames : Nat} {ws s rest : Str} {c : Char} {v : List Token} {e : Ers F} (hc : c ∈ ws)
    (hv : tokenizeList ws (s ++ c :: rest) = tokenizeList ws s ++ v)
    (hu : EnoughWords (tokenizeList ws s)) (hcut : CleanCut (tokenizeList ws s) v) (hf : 4 * (tokenizeList ws s).length ≤ frames)
    (h : parseF15 frames (Ers.new : Ers F) ⟨tokenizeList ws (s ++ c :: rest), 0⟩ = .ok (true, e)) :
    ∃ e' past r ades past' r' later, parseF15 frames (Ers.new : Ers F) ⟨tokenizeList ws s, 0⟩ = .ok (true, e') ∧
      e'.elements = past ++ [r, ades] ∧ e.elements = past' ++ r' :: later ∧ later ≠ [] ∧
      AllSameButCourse past past' ∧ SameElement r r' ∧ Placeholder (py! "ADES") ades := by
  rw [hv] at h
  exact c65 hu hcut hf h

/-- The hypotheses of `c65_text` are met. -/
example : ∃ (v : List Token) (e e' : Ers Rat) (past : List (Record Rat)) (r ades : Record Rat),
    tokenizeList f15Whitespace (py! "N0450F350 LNZ/M082F350 UN871 BAMES DCT 4512N01012E VFR TEXT IFR GRZ/N0450F330") =
      tokenizeList f15Whitespace (py! "N0450F350 LNZ/M082F350 UN871 BAMES") ++ v ∧
    parseF15 1000 (Ers.new : Ers Rat) ⟨tokenizeList f15Whitespace (py! "N0450F350 LNZ/M082F350 UN871 BAMES"), 0⟩ = .ok (true, e') ∧
    e'.elements = past ++ [r, ades] ∧ past.length = 3 ∧ r.name = py! "BAMES" ∧ e.elements.length = 9 := by
  obtain ⟨b, e, h1, h2⟩ := check_ok (s := py! "N0450F350 LNZ/M082F350 UN871 BAMES DCT 4512N01012E VFR TEXT IFR GRZ/N0450F330")
    (p := fun b e => b && (e.elements.map (·.name)).take 4 == [py! "ADEP", py! "LNZ", py! "UN871", py! "BAMES"] &&
      e.elements.length == 9) (by decide +kernel)
  simp only [Bool.and_eq_true, beq_iff_eq] at h2
  obtain ⟨⟨rfl, h2⟩, h3⟩ := h2
  obtain ⟨b', e1, h4, h5⟩ := check_ok (s := py! "N0450F350 LNZ/M082F350 UN871 BAMES")
    (p := fun _ e => e.elements.length == 5) (by decide +kernel)
  simp only [beq_iff_eq] at h5
  have hv : ∃ v, tokenizeList f15Whitespace (py! "N0450F350 LNZ/M082F350 UN871 BAMES DCT 4512N01012E VFR TEXT IFR GRZ/N0450F330") =
      tokenizeList f15Whitespace (py! "N0450F350 LNZ/M082F350 UN871 BAMES") ++ v ∧ v.head?.map (·.text) = some (py! "DCT") :=
    ⟨(tokenizeList f15Whitespace (py! "N0450F350 LNZ/M082F350 UN871 BAMES DCT 4512N01012E VFR TEXT IFR GRZ/N0450F330")).drop 6,
      by decide +kernel, by decide +kernel⟩
  obtain ⟨v, hv, hv0⟩ := hv
  have hlast : (tokenizeList f15Whitespace (py! "N0450F350 LNZ/M082F350 UN871 BAMES")).map (·.text) =
    [py! "N0450F350", py! "LNZ", py! "/", py! "M082F350", py! "UN871", py! "BAMES"] := by decide +kernel
  obtain ⟨e', past, r, ades, past', r', later, g1, g2, g3, g4, g5, g6, g7⟩ := c65_text (F := Rat) (frames := 1000)
    (ws := f15Whitespace) (s := py! "N0450F350 LNZ/M082F350 UN871 BAMES") (c := ' ')
    (rest := py! "DCT 4512N01012E VFR TEXT IFR GRZ/N0450F330") (by decide +kernel) hv (.inl (by decide +kernel))
    ⟨fun t ht => by
        have := congrArg List.getLast? hlast
        rw [List.getLast?_map, ht] at this
        simp only [Option.map_some, List.getLast?_cons_cons, List.getLast?_singleton, Option.some.injEq] at this
        rw [this]; decide,
      fun t ht => by rw [ht] at hv0; simp only [Option.map_some, Option.some.injEq] at hv0; rw [hv0]; decide,
      fun w x p hu hx => by
        rw [hu] at hlast
        have := congrArg (fun l : List Str => l.reverse[1]?) hlast
        simp at this
        rw [hx] at this
        exact absurd this (by decide)⟩ (by decide +kernel) h1
  have he : e' = e1 := by
    have : parseF15 1000 (Ers.new : Ers Rat) ⟨tokenizeList f15Whitespace (py! "N0450F350 LNZ/M082F350 UN871 BAMES"), 0⟩ = .ok (b', e1) := h4
    rw [this] at g1
    cases g1; rfl
  have hp : past.length = 3 := by
    rw [← he, g2] at h5
    simpa using h5
  refine ⟨v, e, e', past, r, ades, hv, g1, g2, hp, ?_, h3⟩
  have hp' : past'.length = 3 := g5.1 ▸ hp
  rw [g3] at h2
  have := congrArg (fun l : List Str => l[3]?) h2
  simp [List.getElem?_take, List.getElem?_append, hp'] at this
  rw [← g6.1, this]

/-- Why the initial speed and level alone is not enough, why the cut may not be beside a slash, and why not behind IFR and a
point. -/
example :
    check (py! "N0450F350 LNZ/M082F350") (fun b _ => b) = true ∧ check (py! "N0450F350") (fun b _ => b) = false ∧
    check (py! "N0450F350 LNZ/") (fun b _ => b) = false ∧
    check (py! "N0450F350 LNZ VFR IFR PNT DEF") (fun b _ => b) = true ∧
    check (py! "N0450F350 LNZ VFR IFR PNT") (fun b _ => b) = false := by
  decide +kernel

end F15
