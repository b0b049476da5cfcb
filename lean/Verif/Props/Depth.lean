import Verif.Spec.Mend
import Verif.Lemmas.Fuel
import Verif.Props.Errors
/-!
# C15, C16: exceptions and recursion depth
-/

namespace F15
open Spec

set_option linter.unusedSectionVars false
variable {F : Type} [PyFloat F]

/-- **C16** With four frames per token `parse_f15` raises no `RecursionError`. -/
theorem c16_enough {frames : Nat} {e : Ers F} (he : e.elements ≠ []) (tokens : Tokens)
    (hf : 4 * tokens.toks.length ≤ frames) : parseF15 frames e tokens ≠ .error .recursionError := by
  have he' : e.recs ≠ [] := by intro h; apply he; unfold Ers.elements; rw [h]; rfl
  rw [parse_eq]
  cases hl : tokens.toks.map assignSyntax with
  | nil => simp [parseL]
  | cons t rest =>
    have hlen : tokens.toks.length = rest.length + 1 := by
      have := congrArg List.length hl; simpa using this
    have hT : ∀ x ∈ t :: rest, Typed x := fun x hx => typed_map (hl ▸ hx)
    have h1 := deep_runL he' hT (by omega : 4 * (rest.length + 1) ≤ frames)
    have h2 := run_trace frames e he' t rest hT
    show (match runL frames e t rest with | .ok e => finish e | .error x => .error x) ≠ _
    cases h : runL frames e t rest with
    | error x => rw [h] at h1; intro h'; cases h'; exact h1 rfl
    | ok e1 =>
      rw [h] at h2
      obtain ⟨e2, hr, rfl⟩ := h2
      obtain ⟨ts1, hs⟩ := hr.start (by simp)
      have hne : e2.recs ≠ [] := (Star.invs hs ⟨he', List.suffix_refl _⟩).ne
      have : (post t e2).recs ≠ [] := by
        obtain ⟨l, o, h3⟩ := split_last _ hne
        rw [post_recs t e2 l o h3]; simp
      dsimp only
      rw [finish_eq _ this]
      intro h; cases h

/-- **C16** The result does not depend on the number of frames, unless they run out. -/
theorem c16_same {n m : Nat} (h : n ≤ m) (e : Ers F) (tokens : Tokens) (hr : parseF15 n e tokens ≠ .error .recursionError) :
    parseF15 m e tokens = parseF15 n e tokens := by
  rw [parse_eq] at hr ⊢
  rw [parse_eq]
  cases hl : tokens.toks.map assignSyntax with
  | nil => rfl
  | cons t rest =>
    rw [hl] at hr
    show (match runL m e t rest with | .ok e => finish e | .error x => .error x) =
      (match runL n e t rest with | .ok e => finish e | .error x => .error x)
    rcases le_runL h e t rest with h | h
    · exfalso
      apply hr
      show (match runL n e t rest with | .ok e => finish e | .error x => .error x) = _
      rw [h]
    · rw [h]

/-- **C15 (partial)** With four frames per token and none of the tokens of `c15_partial`, `parse_f15` returns. -/
theorem c15_returns_partial {frames : Nat} {e : Ers F} (he : e.elements ≠ []) (tokens : Tokens)
    (hf : 4 * tokens.toks.length ≤ frames) (hc : ∀ t ∈ tokens.toks, ¬ CrashText t.text) :
    ∃ b e', parseF15 frames e tokens = .ok (b, e') := by
  cases h : parseF15 frames e tokens with
  | ok r => exact ⟨r.1, r.2, rfl⟩
  | error x =>
    exfalso
    rcases c15_partial he h with rfl | ⟨_, t, ht, h⟩
    · exact c16_enough he tokens hf h
    · exact hc t ht h

/-! ### The depth grows -/

/-- Typed as an ordinary named point. -/
def NamedPt (t : Token) : Prop := Typed t ∧ t.base = .POINT ∧ t.sub = .PRP

theorem NamedPt.nums {t : Token} (h : NamedPt t) : (Act.point t).nums = [] := by
  show posNums t = []
  unfold posNums; rw [h.2.2]

theorem NamedPt.errs {t : Token} (h : NamedPt t) (e : Ers F) : ((Act.point t).run e).errs = e.errs := by
  rw [run_errs, h.nums]; rfl

theorem points_deep (ts : List Token) (hT : ∀ x ∈ ts, NamedPt x) : ∀ (t : Token) (e : Ers F), NamedPt t →
    e.recs ≠ [] → ∀ n, n ≤ 2 * ts.length → exec n (.point t) (⟨e, ts⟩ : St (List Token) F) = .error .recursionError := by
  induction ts with
  | nil => intro t e ht he n hn; obtain rfl : n = 0 := by simpa using hn
           rfl
  | cons x xs ih =>
    intro t e ht he n hn
    match n, hn with
    | 0, _ => rfl
    | 1, _ => show step _ (.point t) _ = _
              rw [step_point _ t ht.1 e _ he]; rfl
    | n + 2, hn =>
      have hx := hT x (by simp)
      show step _ (.point t) _ = _
      rw [step_point _ t ht.1 e _ he]
      show step _ (.postPoint x) _ = _
      rw [step_postPoint _ x _ _ (Act.run_ne _ _ he), hx.2.1]
      exact ih (fun y hy => hT y (by simp [hy])) x _ hx (Act.run_ne _ _ he) n (by rw [List.length_cons] at hn; omega)

theorem points_fit (ts : List Token) (hT : ∀ x ∈ ts, NamedPt x) : ∀ (t : Token) (e : Ers F), NamedPt t →
    e.recs ≠ [] → ∀ n, 2 * ts.length < n → ∃ s, exec n (.point t) (⟨e, ts⟩ : St (List Token) F) = .ok ((), s) ∧
      s.ers.errs = e.errs ∧ s.ers.recs ≠ [] := by
  induction ts with
  | nil =>
    intro t e ht he n hn
    obtain ⟨m, rfl⟩ : ∃ m, n = m + 1 := ⟨n - 1, by simp at hn; omega⟩
    refine ⟨⟨(Act.point t).run e, []⟩, ?_, ht.errs e, Act.run_ne _ _ he⟩
    show step _ (.point t) _ = _
    rw [step_point _ t ht.1 e _ he]
  | cons x xs ih =>
    intro t e ht he n hn
    obtain ⟨m, rfl⟩ : ∃ m, n = m + 2 := ⟨n - 2, by rw [List.length_cons] at hn; omega⟩
    have hx := hT x (by simp)
    have := ih (fun y hy => hT y (by simp [hy])) x _ hx (Act.run_ne (.point t) e he) m
      (by rw [List.length_cons] at hn; omega)
    obtain ⟨s, h1, h2, h3⟩ := this
    refine ⟨s, ?_, h2.trans (ht.errs e), h3⟩
    rw [← h1]
    show step _ (.point t) _ = _
    rw [step_point _ t ht.1 e _ he]
    show step _ (.postPoint x) _ = _
    rw [step_postPoint _ x _ _ (Act.run_ne _ _ he), hx.2.1]

theorem namedPt_of {t : Token} (h : t.text = py! "PNT") : NamedPt (assignSyntax t) := by
  have h1 : getTokenType (py! "PNT") = (.POINT, .PRP) := by decide +kernel
  refine ⟨typed_assign t, ?_, ?_⟩ <;> rw [assignSyntax_eq, h, h1] <;> rfl

theorem assign_text (t : Token) : (assignSyntax t).text = t.text := by
  rw [assignSyntax_eq]; split <;> rfl

theorem level_of {t : Token} (h : t.text = py! "N0450F350") : (assignSyntax t).base = .SPEED_ALTITUDE ∧
    (Act.level (assignSyntax t)).nums = [] := by
  have h1 : (getTokenType (py! "N0450F350")).1 = .SPEED_ALTITUDE := by decide +kernel
  refine ⟨by rw [assignSyntax_eq, h]; exact h1, ?_⟩
  show granErr (restOf (assignSyntax t).text) = []
  rw [assign_text, h]; decide +kernel

/-- **C16** The field 15 `N0450F350 PNT PNT ... PNT` with `k` points is accepted given `2 k + 1` frames, but raises
`RecursionError` with `2 k` frames or less: for every recursion limit there is a valid route exceeding it. -/
theorem c16_grows (k : Nat) (hk : 0 < k) (tokens : Tokens)
    (ht : tokens.toks.map (·.text) = py! "N0450F350" :: List.replicate k (py! "PNT")) (frames : Nat) :
    (frames ≤ 2 * k → parseF15 frames (Ers.new : Ers F) tokens = .error .recursionError) ∧
    (2 * k < frames → ∃ e, parseF15 frames (Ers.new : Ers F) tokens = .ok (true, e)) := by
  rw [parse_eq]
  obtain ⟨toks, i⟩ := tokens
  dsimp only at ht ⊢
  cases toks with
  | nil => cases ht
  | cons t rest =>
    rw [List.map_cons, List.cons.injEq] at ht
    obtain ⟨h1, h2⟩ := ht
    have hlen : rest.length = k := by have := congrArg List.length h2; simpa using this
    have hall : ∀ x ∈ rest.map assignSyntax, NamedPt x := by
      intro x hx
      obtain ⟨y, hy, rfl⟩ := List.mem_map.1 hx
      have : y.text ∈ List.replicate k (py! "PNT") := h2 ▸ List.mem_map_of_mem hy
      exact namedPt_of (List.eq_of_mem_replicate this)
    obtain ⟨hb, hn⟩ := level_of h1
    cases rest with
    | nil => simp at hlen; omega
    | cons p ps =>
      rw [List.map_cons, List.map_cons]
      rw [List.map_cons] at hall
      have hp := hall (assignSyntax p) (by simp)
      have hps : ∀ x ∈ ps.map assignSyntax, NamedPt x := fun x hx => hall x (by simp [hx])
      have hne : (Ers.new : Ers F).recs ≠ [] := List.cons_ne_nil _ _
      have e2 : ∀ m, exec (m + 2) (.assignSpeedAltitude (assignSyntax t))
          (⟨Ers.new, assignSyntax p :: ps.map assignSyntax⟩ : St (List Token) F) =
          exec m (.point (assignSyntax p)) ⟨(Act.level (assignSyntax t)).run Ers.new, ps.map assignSyntax⟩ := by
        intro m
        show step _ (.assignSpeedAltitude (assignSyntax t)) _ = _
        rw [step_level _ _ (typed_assign t) hb _ _ hne]
        dsimp only
        rw [if_pos (show (Ers.new : Ers F).recs.length = 1 from rfl)]
        show postAdep _ _ _ = _
        unfold postAdep
        rw [hp.2.1]
      have e1 : exec 1 (.assignSpeedAltitude (assignSyntax t))
          (⟨Ers.new, assignSyntax p :: ps.map assignSyntax⟩ : St (List Token) F) = .error .recursionError := by
        show step _ (.assignSpeedAltitude (assignSyntax t)) _ = _
        rw [step_level _ _ (typed_assign t) hb _ _ hne]
        dsimp only
        rw [if_pos (show (Ers.new : Ers F).recs.length = 1 from rfl)]; rfl
      have hl : (ps.map assignSyntax).length + 1 = k := by rw [List.length_map]; simpa using hlen
      unfold parseL
      dsimp only
      unfold runL
      rw [hb]
      refine ⟨fun hf => ?_, fun hf => ?_⟩
      · have : exec frames (.assignSpeedAltitude (assignSyntax t))
          (⟨Ers.new, assignSyntax p :: ps.map assignSyntax⟩ : St (List Token) F) = .error .recursionError := by
          match frames, hf with
          | 0, _ => rfl
          | 1, _ => exact e1
          | m + 2, hf =>
            rw [e2]
            exact points_deep _ hps _ _ hp (Act.run_ne _ _ hne) m (by omega)
        dsimp only
        rw [this]
      · obtain ⟨m, rfl⟩ : ∃ m, frames = m + 2 := ⟨frames - 2, by omega⟩
        obtain ⟨s, hs, hs2, hs3⟩ := points_fit _ hps _ _ hp (Act.run_ne (.level (assignSyntax t)) (Ers.new : Ers F) hne) m (by omega)
        dsimp only
        rw [e2, hs]
        dsimp only
        rw [if_neg (by simp)]
        dsimp only
        rw [finish_eq _ hs3, hs2, run_errs, hn]
        exact ⟨_, rfl⟩

example : (⟨tokenizeList f15Whitespace (py! "N0450F350 PNT PNT  PNT"), 0⟩ : Tokens).toks.map (·.text) =
    py! "N0450F350" :: List.replicate 3 (py! "PNT") := by decide +kernel

end F15
