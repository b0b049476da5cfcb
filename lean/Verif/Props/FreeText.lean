import Verif.Lemmas.FreeText
import Verif.Lemmas.Noise4
import Verif.Spec.FreeText
import Verif.Props.Depth
import Verif.Props.Grammar
import Verif.Props.Recover
/-!
# C64: free text is only collected
-/

namespace F15
open Spec

set_option linter.unusedSectionVars false
variable {F : Type} [PyFloat F]

theorem spaced_typed (ws : List Token) : spaced (ws.map assignSyntax) = spaced ws := by
  unfold spaced
  rw [List.map_map]
  congr 3
  funext t
  exact assign_text t

theorem runTo_nil {q : Phase} {as : List Act} {z : Option Phase} (h : RunTo q [] as z) : z = some q := by
  obtain ⟨u, hu⟩ : ∃ u : List Token, u = [] := ⟨_, rfl⟩
  rw [← hu] at h
  cases h
  case here => rfl
  all_goals cases hu

/-- The sentences that differ only in the free text. -/
theorem text_swap {a X X' b : List Token} {as cs : List Act} {o : Token} (hT : ∀ t ∈ a ++ X ++ b, Typed t)
    (ha : SentRun a as) (ho : a.getLast? = some o) (hop : OpensText o)
    (hX : ∀ t ∈ X, t.base ≠ .BREAK_END) (hX' : ∀ t ∈ X', Typed t ∧ t.base ≠ .BREAK_END ∧ t.base ≠ .TOO_LONG)
    (h : SentRun (a ++ X ++ b) cs) :
    ∃ ds pre p A r, cs = as ++ (X.map .text ++ ds) ∧ SentRun (a ++ X' ++ b) (as ++ (X'.map .text ++ ds)) ∧
      Run (.text r) b ds ∧ as = pre ++ p :: A.map .text ∧ p.records = true ∧ A <:+ a := by
  cases a with
  | nil => cases ha
  | cons t rest =>
    obtain ⟨bs, rfl, h1, h2, hb⟩ := sentRun_start ha
    obtain ⟨cs, rfl, h3, _, _⟩ := sentRun_start (rest := rest ++ X ++ b) h
    obtain ⟨z, h4⟩ := h1.to
    obtain ⟨z', h5⟩ := h3.to
    have hnc : ∀ t : Token, Typed t → t.base ≠ .BREAK_END → ∀ r, ¬ closes t r :=
      fun t ht hb r hc => hb (closes_is_end ht hc)
    have hfirm : Firm rest z := by
      refine .inr fun o' ho' => ?_
      have : o' = o := by
        cases rest with
        | nil => cases ho'
        | cons y ys => rw [List.getLast?_cons_cons, ho'] at ho; exact Option.some.inj ho
      subst this
      have hm : o' ∈ rest := List.mem_of_getLast? ho'
      refine ⟨fun h => hop.ne h (by decide), hnc o' (hT o' (by simp [hm])) (fun h => hop.ne h (by decide))⟩
    -- the phase at the end of `a`
    have hz : ∃ r, z = some (.text r) := by
      rcases last_cons ho with ⟨rfl, rfl⟩ | ho
      · have hz : z = some (startPhase t) := runTo_nil h4
        rcases hop with hop | hop
        · rcases hb with hb | hb <;> rw [hop] at hb <;> cases hb
        · refine ⟨py! "VFR", hz.trans ?_⟩
          unfold startPhase
          rw [if_pos hop]
      · exact opens_text h4 ho hop
    obtain ⟨r, rfl⟩ := hz
    obtain ⟨ds, rfl, h6⟩ := h4.extend' hfirm (v := X ++ b) h5 (by rw [List.append_assoc])
    obtain ⟨ds, rfl, h7⟩ := run_words (fun t ht => hnc t (hT t (by simp [ht])) (hX t ht) r) (RunToG.run h6)
    have h8 := h4.append hfirm rfl (words_run (ws := X') (fun t ht => ⟨(hX' t ht).2.2, hnc t (hX' t ht).1 (hX' t ht).2.1 r⟩) h7)
    have hend : ∃ pre p A, startAct t :: bs = pre ++ p :: A.map Act.text ∧ p.records = true ∧ A <:+ t :: rest := by
      rcases text_end h4 rfl with ⟨r0, hq, rfl⟩ | ⟨pre, p, A, rfl, hp, hA⟩
      · have hv : t.base = .SPEED_VFR := by
          unfold startPhase at hq
          split at hq
          · assumption
          · cases hq
        refine ⟨[], startAct t, rest, rfl, ?_, List.suffix_cons _ _⟩
        unfold startAct
        rw [if_pos hv]; rfl
      · exact ⟨startAct t :: pre, p, A, rfl, hp, hA.trans (List.suffix_cons _ _)⟩
    obtain ⟨pre, p, A, h9, hp, hA⟩ := hend
    refine ⟨ds, pre, p, A, r, rfl, ?_, h7, h9, hp, hA⟩
    have h10 : Run (startPhase t) (rest ++ X' ++ b) (bs ++ (X'.map .text ++ ds)) := by rw [List.append_assoc]; exact h8
    rcases hb with hb' | hb'
    · unfold startAct startPhase at *
      rw [if_pos hb'] at h10 ⊢
      exact .vfr hb' h10
    · unfold startAct startPhase at *
      have hn : ¬ t.base = .SPEED_VFR := by rw [hb']; decide
      rw [if_neg hn] at h10 h2 ⊢
      refine .ifr hb' (fun _ => h2) ?_ h10
      intro hnil
      rcases last_cons ho with ⟨rfl, rfl⟩ | ho
      · exact hop.ne hb' (by decide)
      · have : rest = [] := by
          cases rest with
          | nil => rfl
          | cons => cases hnil
        rw [this] at ho; cases ho

/-- **C64** Let `a` be an accepted field 15 whose last word starts free text, and let `a ++ X ++ b` be accepted, where no
word of `X` ends free text. If `X` is replaced by any words `X'` that end no free text and are not over-long (names of points, routes,
a STAR, `T`, `/`, levels, any misspelt word, or no words at all), the field 15 is accepted again (the stack being deep
enough), and nothing changes but the break text of one element, the last one of `a` before the ADES: there the words of
`X'` take the place of those of `X`. -/
theorem c64 {frames : Nat} {a X X' b : List Token} {o : Token} {ea e : Ers F}
    (ha : parseF15 frames (Ers.new : Ers F) ⟨a, 0⟩ = .ok (true, ea)) (ho : a.getLast? = some o) (hop : Opener o)
    (hX : ∀ t ∈ X, Inert t) (hX' : ∀ t ∈ X', Inert t ∧ Readable t)
    (hne : ∀ t ∈ a ++ X ++ X' ++ b, t.text ≠ []) (hf : 4 * (a ++ X' ++ b).length ≤ frames)
    (h : parseF15 frames (Ers.new : Ers F) ⟨a ++ X ++ b, 0⟩ = .ok (true, e)) :
    ∃ e' A Z before after, parseF15 frames (Ers.new : Ers F) ⟨a ++ X' ++ b, 0⟩ = .ok (true, e') ∧
      e'.elements.map withoutText = e.elements.map withoutText ∧ e'.derived = e.derived ∧
      A <:+ a ∧ Z <+: b ∧ before.length + 2 = ea.elements.length ∧
      ea.elements.map (·.breakText) = before ++ [spaced A, []] ∧
      e.elements.map (·.breakText) = before ++ spaced (A ++ X ++ Z) :: after ∧
      e'.elements.map (·.breakText) = before ++ spaced (A ++ X' ++ Z) :: after := by
  have new_ne' : (Ers.new : Ers F).recs ≠ [] := new_ne
  rw [parse_eq] at ha h
  obtain ⟨t, rest, as, hat, hs, rfl⟩ := accepted (F := F) new_len rfl (fun x hx => typed_map hx) ha
  obtain ⟨t', rest', cs, hat', hs', rfl⟩ := accepted (F := F) new_len rfl (fun x hx => typed_map hx) h
  dsimp only at hat hat' hs hs'
  rw [List.map_append, List.map_append] at hat' hs'
  have htt : t' = t := by rw [hat] at hat'; exact (List.cons.inj hat').1.symm
  subst htt
  obtain ⟨ds, pre, p, A, r, rfl, hnew, hrun, has, hp, hA⟩ := text_swap (a := a.map assignSyntax) (X := X.map assignSyntax)
    (X' := X'.map assignSyntax) (b := b.map assignSyntax) (o := assignSyntax o)
    (fun x hx => by
      rw [← List.map_append, ← List.map_append] at hx
      exact typed_map hx) hs (by rw [List.getLast?_map, ho]; rfl) hop
    (by intro x hx; obtain ⟨y, hy, rfl⟩ := List.mem_map.1 hx; exact hX y hy)
    (by intro x hx; obtain ⟨y, hy, rfl⟩ := List.mem_map.1 hx; exact ⟨typed_assign y, hX' y hy⟩) hs'
  obtain ⟨A, hA0, rfl⟩ : ∃ A0, A0 <:+ a ∧ A = A0.map assignSyntax := by
    obtain ⟨w, hw⟩ := hA
    obtain ⟨a1, a2, rfl, rfl, rfl⟩ := List.map_eq_append_iff.1 hw.symm
    exact ⟨a2, List.suffix_append a1 a2, rfl⟩
  obtain ⟨ns, Z, hZ, hbr⟩ := breaks_free hrun
  obtain ⟨Z, hZ0, rfl⟩ : ∃ Z0, Z0 <+: b ∧ Z = Z0.map assignSyntax := by
    obtain ⟨w, hw⟩ := hZ
    obtain ⟨a1, a2, rfl, rfl, rfl⟩ := List.map_eq_append_iff.1 hw.symm
    exact ⟨a1, List.prefix_append a1 a2, rfl⟩
  -- parse of the changed field
  rw [← List.map_append, ← List.map_append] at hnew
  obtain ⟨n, t'', hh, hpar⟩ := sentence_parses (F := F) new_len rfl (fun x hx => typed_map hx) hnew
  have htt : t'' = t' := by
    rw [List.map_append, List.map_append, hat] at hh
    exact (Option.some.inj hh).symm
  subst htt
  -- the break texts
  have hpre := runs_ne pre (Ers.new : Ers F) new_ne'
  obtain ⟨P, hP⟩ : ∃ P, P = breaks (runs pre (Ers.new : Ers F)) := ⟨_, rfl⟩
  have tx : ∀ l : List Token, (∀ t ∈ l, t.text ≠ []) → ∀ t ∈ l.map assignSyntax, t.text ≠ [] := by
    intro l hl t ht
    obtain ⟨y, hy, rfl⟩ := List.mem_map.1 ht
    rw [assign_text]; exact hl y hy
  have neA : ∀ t ∈ A, t.text ≠ [] := fun t ht => hne t (by simp [hA0.subset ht])
  have neX : ∀ t ∈ X, t.text ≠ [] := fun t ht => hne t (by simp [ht])
  have neX' : ∀ t ∈ X', t.text ≠ [] := fun t ht => hne t (by simp [ht])
  have neZ : ∀ t ∈ Z, t.text ≠ [] := fun t ht => hne t (by simp [hZ0.subset ht])
  have hba : breaks (runs as (Ers.new : Ers F)) = spaced A :: P := by
    rw [breaks_runs as new_ne', has, List.foldl_append, ← breaks_runs pre new_ne', ← hP, List.foldl_cons]
    have : btStep P p = [] :: P := by unfold btStep; rw [if_pos hp]
    have h0 := addWords_eq (b := []) (A.map assignSyntax) (A := []) (by simp) (tx A neA) rfl
    rw [this, fold_words, h0, List.nil_append, spaced_typed]
  have hbx : ∀ Y : List Token, (∀ t ∈ Y, t.text ≠ []) →
      breaks (runs (as ++ ((Y.map assignSyntax).map .text ++ ds)) (Ers.new : Ers F)) = ns ++ spaced (A ++ Y ++ Z) :: P := by
    intro Y hY
    rw [breaks_runs _ new_ne', List.foldl_append, ← breaks_runs as new_ne', hba, List.foldl_append, fold_words, hbr,
      ← addWords_append, addWords_eq (A := A) _ neA ?_ rfl]
    · congr 2
      have hc : (fun t : Token => t.text) ∘ assignSyntax = fun t => t.text := funext assign_text
      unfold spaced
      simp only [List.map_append, List.map_map, List.append_assoc, hc]
    · rw [← List.map_append]
      refine tx _ fun t ht => ?_
      rcases List.mem_append.1 ht with ht | ht
      · exact hY t ht
      · exact neZ t ht
  have hhead : ∀ Y : List Token, (runs (Y.map Act.text) (runs as (Ers.new : Ers F))).recs.map noText =
      (runs as (Ers.new : Ers F)).recs.map noText := by
    intro Y
    generalize runs as (Ers.new : Ers F) = e0
    induction Y generalizing e0 with
    | nil => rfl
    | cons y Y ih =>
      rw [List.map_cons, runs_cons, ih]
      show (mapHead _ _).map noText = _
      cases e0.recs with
      | nil => rfl
      | cons r rs =>
        show noText (r.appendBreakText y.text) :: _ = _
        unfold Record.appendBreakText
        split <;> rfl
  have hsplit : ∀ Y : List Token, (runs (as ++ (Y.map .text ++ ds)) (Ers.new : Ers F)) =
      runs ds (runs (Y.map .text) (runs as Ers.new)) := by
    intro Y
    unfold runs
    rw [List.foldl_append, List.foldl_append]
  have hno : (runs (as ++ ((X'.map assignSyntax).map .text ++ ds)) (Ers.new : Ers F)).recs.map noText =
      (runs (as ++ ((X.map assignSyntax).map .text ++ ds)) (Ers.new : Ers F)).recs.map noText := by
    rw [hsplit, hsplit]
    exact blind_runs ds (by rw [hhead, hhead])
  obtain ⟨hfin1, hfin2⟩ := fin_noText (blind_post t'' hno)
  refine ⟨_, A, Z, P.reverse, ns.reverse ++ [[]], ?_, hfin1, hfin2, hA0, hZ0, ?_, ?_, ?_, ?_⟩
  · rw [← parse_eq (tokens := ⟨a ++ X' ++ b, 0⟩)] at hpar
    have hne' : (Ers.new : Ers F).elements ≠ [] := by simp [Ers.elements, new_ne]
    rcases Nat.le_total n frames with hle | hle
    · rw [c16_same hle _ _ (by rw [hpar]; intro h; cases h), hpar]
    · rw [← c16_same hle _ _ (c16_enough hne' ⟨a ++ X' ++ b, 0⟩ hf), hpar]
  · have := congrArg List.length (fin_breaks (post t'' (runs as (Ers.new : Ers F))))
    rw [breaks_post, hba] at this
    simp only [List.length_map, List.length_append, List.length_reverse, List.length_cons, List.length_nil] at this ⊢
    omega
  · rw [fin_breaks, breaks_post, hba]; simp
  · rw [fin_breaks, breaks_post, hbx X neX]; simp
  · rw [fin_breaks, breaks_post, hbx X' neX']; simp

theorem layout_ne {ws : Str} {texts : List Str} {src : Str} (h : Layout ws texts src) : ∀ t ∈ texts, t ≠ [] := by
  induction h with
  | nil => intro t h; cases h
  | word _ hw => intro t h; simp only [List.mem_singleton] at h; subst h; exact hw.1
  | wordSep _ hw _ _ ih =>
    intro t h
    rcases List.mem_cons.1 h with rfl | h
    · exact hw.1
    · exact ih t h
  | slash _ _ _ ih =>
    intro t h
    rcases List.mem_cons.1 h with rfl | h
    · simp
    · exact ih t h

/-- Same words: everything the same but the places. -/
theorem same_words_all {frames : Nat} {T T' : List Token} {b : Bool} {e : Ers F}
    (h : parseF15 frames (Ers.new : Ers F) ⟨T, 0⟩ = .ok (b, e)) (ht : T.map (·.text) = T'.map (·.text)) :
    ∃ e', parseF15 frames (Ers.new : Ers F) ⟨T', 0⟩ = .ok (b, e') ∧ e.elements.map noPlace = e'.elements.map noPlace ∧
      e.derived = e'.derived := by
  have := c51 (F := F) frames ⟨T, 0⟩ ⟨T', 0⟩ ht
  rw [h] at this
  cases hp : parseF15 frames (Ers.new : Ers F) ⟨T', 0⟩ with
  | error x => rw [hp] at this; exact this.elim
  | ok p =>
    obtain ⟨b', e'⟩ := p
    rw [hp] at this
    obtain ⟨rfl, hd, h3, _⟩ := this
    exact ⟨e', rfl, noPlace_of h3, hd⟩

/-- **C64** for texts: `src` is a layout of the words of `a ++ X ++ b`, `src'` one of the words of `a ++ X' ++ b`. -/
theorem c64_text {frames : Nat} {ws src src' : Str} {a X X' b : List Token} {o : Token} {ea e : Ers F}
    (hs : Layout ws ((a ++ X ++ b).map (·.text)) src) (hs' : Layout ws ((a ++ X' ++ b).map (·.text)) src')
    (ha : parseF15 frames (Ers.new : Ers F) ⟨a, 0⟩ = .ok (true, ea)) (ho : a.getLast? = some o) (hop : Opener o)
    (hX : ∀ t ∈ X, Inert t) (hX' : ∀ t ∈ X', Inert t ∧ Readable t) (hf : 4 * (a ++ X' ++ b).length ≤ frames)
    (h : parseF15 frames (Ers.new : Ers F) ⟨tokenizeList ws src, 0⟩ = .ok (true, e)) :
    ∃ e' A Z before after, parseF15 frames (Ers.new : Ers F) ⟨tokenizeList ws src', 0⟩ = .ok (true, e') ∧
      e'.elements.map (noPlace ∘ withoutText) = e.elements.map (noPlace ∘ withoutText) ∧ e'.derived = e.derived ∧
      A <:+ a ∧ Z <+: b ∧ before.length + 2 = ea.elements.length ∧
      ea.elements.map (·.breakText) = before ++ [spaced A, []] ∧
      e.elements.map (·.breakText) = before ++ spaced (A ++ X ++ Z) :: after ∧
      e'.elements.map (·.breakText) = before ++ spaced (A ++ X' ++ Z) :: after := by
  have ht := c04_layout ws src _ hs
  have ht' := c04_layout ws src' _ hs'
  obtain ⟨e1, h1, h2, h3⟩ := same_words_all h ht
  have hne : ∀ t ∈ a ++ X ++ X' ++ b, t.text ≠ [] := by
    intro t hm
    have n1 := layout_ne hs
    have n2 := layout_ne hs'
    by_cases hx : t ∈ X'
    · exact n2 _ (List.mem_map.2 ⟨t, by simp [hx], rfl⟩)
    · refine n1 _ (List.mem_map.2 ⟨t, ?_, rfl⟩)
      simp only [List.mem_append] at hm ⊢
      rcases hm with ((hm | hm) | hm) | hm
      · exact .inl (.inl hm)
      · exact .inl (.inr hm)
      · exact absurd hm hx
      · exact .inr hm
  obtain ⟨e2, A, Z, before, after, g1, g2, g3, g4, g5, g6, g7, g8, g9⟩ := c64 ha ho hop hX hX' hne hf h1
  obtain ⟨e', k1, k2, k3⟩ := same_words_all g1 ht'.symm
  have conv : ∀ l l' : List (Record F), l.map noPlace = l'.map noPlace →
      l.map (noPlace ∘ withoutText) = l'.map (noPlace ∘ withoutText) ∧ l.map (·.breakText) = l'.map (·.breakText) := by
    intro l l' h
    constructor
    · have := congrArg (List.map withoutText) h
      rw [List.map_map, List.map_map] at this
      exact this
    · have := congrArg (List.map (·.breakText)) h
      rw [List.map_map, List.map_map] at this
      exact this
  refine ⟨e', A, Z, before, after, k1, ?_, ?_, g4, g5, g6, g7, ?_, ?_⟩
  · rw [(conv _ _ h2).1, ← (conv _ _ k2).1, ← List.map_map, g2, List.map_map]
  · rw [h3, ← g3, k3]
  · rw [(conv _ _ h2).2]; exact g8
  · rw [← (conv _ _ k2).2]; exact g9

/-! ### Concrete cases -/

@[irreducible] def textA : List Token := tokenizeList f15Whitespace (py! "N0450F350 LNZ VFR")
@[irreducible] def textX : List Token := tokenizeList f15Whitespace (py! "ABC DEF")
@[irreducible] def textX' : List Token := tokenizeList f15Whitespace (py! "C/123 ??? STAR VFR N0450F352 T")
@[irreducible] def textB : List Token := tokenizeList f15Whitespace (py! "IFR IFR PNT/N0450F350 DCT XYZ")

/-- Free text is replaced by words that would be wrong in any other place. -/
example : ∃ e : Ers Rat, parseText (py! "N0450F350 LNZ VFR C /123 ??? STAR VFR N0450F352 T IFR IFR PNT/N0450F350 DCT XYZ") = .ok (true, e) ∧
    ∃ before after Z, before.length = 2 ∧ e.elements.map (·.breakText) = before ++ spaced (textX' ++ Z) :: after ∧ Z <+: textB := by
  have h1 : check (py! "N0450F350 LNZ VFR") (fun b e => b && decide (e.elements.map (·.breakText) = [[], [], [], []])) = true := by decide +kernel
  have h2 : check (py! "N0450F350 LNZ VFR ABC DEF IFR IFR PNT/N0450F350 DCT XYZ") (fun b _ => b) = true := by decide +kernel
  obtain ⟨b1, ea, a1, a2⟩ := check_ok h1
  simp only [Bool.and_eq_true, decide_eq_true_eq] at a2
  obtain ⟨rfl, a2⟩ := a2
  obtain ⟨b2, e, a3, rfl⟩ := check_ok h2
  have a1 : parseF15 1000 (Ers.new : Ers Rat) ⟨textA, 0⟩ = .ok (true, ea) := by unfold textA; exact a1
  obtain ⟨o, ho, hop⟩ : ∃ o, textA.getLast? = some o ∧ Opener o := by
    have : textA.getLast?.any (fun t => decide ((assignSyntax t).base = .BREAK_START)) = true := by decide +kernel
    cases hl : textA.getLast? with
    | none => rw [hl] at this; cases this
    | some o => rw [hl] at this; exact ⟨o, rfl, .inl (by simpa using this)⟩
  have lay : ∀ (s : Str) (l : List Token), (tokenizeList f15Whitespace s).map (·.text) = l.map (·.text) →
      Layout f15Whitespace (l.map (·.text)) s := by
    intro s l h
    have := c04_layout_exists f15Whitespace s
    rwa [h] at this
  obtain ⟨e', A, Z, before, after, g1, _, _, g4, g5, g6, g7, _, g9⟩ := c64_text (F := Rat) (frames := 1000) (ws := f15Whitespace)
    (src := py! "N0450F350 LNZ VFR ABC DEF IFR IFR PNT/N0450F350 DCT XYZ")
    (src' := py! "N0450F350 LNZ VFR C /123 ??? STAR VFR N0450F352 T IFR IFR PNT/N0450F350 DCT XYZ")
    (a := textA) (X := textX) (X' := textX') (b := textB) (lay _ _ (by decide +kernel)) (lay _ _ (by decide +kernel)) a1 ho hop
    (by
      have : ∀ t ∈ textX, (assignSyntax t).base ≠ .BREAK_END := by decide +kernel
      exact this)
    (by
      have : ∀ t ∈ textX', (assignSyntax t).base ≠ .BREAK_END ∧ (assignSyntax t).base ≠ .TOO_LONG := by decide +kernel
      exact this)
    (by decide +kernel) a3
  refine ⟨e', g1, before, after, Z, ?_, ?_, g5⟩
  · have := congrArg List.length a2
    simp only [List.length_map, List.length_cons, List.length_nil] at this
    omega
  · rw [a2] at g7
    have hA : A = [] := by
      have hsA : spaced A = [] := by
        have := congrArg (fun l : List Str => l.reverse[1]?) g7
        simpa using this.symm
      have hm : ∀ t ∈ textA, t.text ≠ [] := by decide +kernel
      exact spaced_eq_nil (fun t ht => hm t (g4.subset ht)) hsA
    rw [hA] at g9
    exact g9

/-- Why IFR is not allowed among the new words, and why over-long words are not. -/
example :
    check (py! "N0450F350 LNZ VFR ABC DEF") (fun b _ => b) = true ∧
    check (py! "N0450F350 LNZ VFR IFR DEF/T") (fun b _ => b) = false ∧
    check (py! "N0450F350 LNZ VFR ABCDEFGHIJKLMNOPQRSTUVWXYZ DEF") (fun b _ => b) = false := by
  decide +kernel

end F15
