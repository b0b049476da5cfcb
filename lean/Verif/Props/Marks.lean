import Verif.Props.Tokenizer
import Verif.Props.Sequence
import Verif.Spec.Example
/-!
# C85: elements and errors can be marked in the text

C01, C02, C17, C18 and C19 put together, for the text itself.
-/

namespace F15.Spec

/-- The word of the text `s` from `i` to `j`, classified. -/
def wordAt (s : Str) (i j : Nat) : Token := assignSyntax ⟨piece s i j, i, j, .UNKNOWN, .UNKNOWN⟩

/-- Two stretches of a text do not overlap. -/
def Apart {F : Type} [PyFloat F] (r r' : Record F) : Prop := r.stop ≤ r'.start ∨ r'.stop ≤ r.start

end F15.Spec

namespace F15
open Spec

set_option linter.unusedSectionVars false
variable {F : Type} [PyFloat F]

theorem typed_wordAt {ws s : Str} {u : Token} (h : u ∈ typedTokens ⟨tokenizeList ws s, 0⟩) : IsTok ws s u.start u.stop ∧ u = wordAt s u.start u.stop := by
  obtain ⟨t, ht, rfl⟩ := List.mem_map.1 h
  have ht : t ∈ tokenizeList ws s := ht
  obtain ⟨_, _, hp, _⟩ := c01_locations ws s t ht
  obtain ⟨hb, hu⟩ := c03_untyped ws s t ht
  have h1 : (assignSyntax t).start = t.start := by unfold assignSyntax; dsimp only; split <;> rfl
  have h2 : (assignSyntax t).stop = t.stop := by unfold assignSyntax; dsimp only; split <;> rfl
  rw [h1, h2]
  refine ⟨(c03_tokens_iff ws s t.start t.stop).1 ⟨t, ht, rfl, rfl⟩, ?_⟩
  unfold wordAt
  rw [hp, ← hb]
  congr 1
  cases t; simp_all

theorem words_apart (ws s : Str) : (typedTokens ⟨tokenizeList ws s, 0⟩).Pairwise fun u v => u.stop ≤ v.start := by
  unfold typedTokens
  rw [List.pairwise_map]
  refine (c02_disjoint ws s).imp fun {a b} h => ?_
  have h1 : (assignSyntax b).start = b.start := by unfold assignSyntax; dsimp only; split <;> rfl
  have h2 : (assignSyntax a).stop = a.stop := by unfold assignSyntax; dsimp only; split <;> rfl
  rw [h1, h2]
  exact h.2.1

/-- **C85** The elements and the errors of a text `s`. Each element but the ADEP and the ADES, and each error, has the start and end index of a word of `s` (a maximal
stretch without separators, or a `/`), the text found there as its name (`VFR` for a SPEED/VFR) and the types of that word (unless taken as SID or STAR). No
two elements overlap. An error and an element, or two errors, do not overlap unless they are about the same word. -/
theorem c85 {frames : Nat} {ws s : Str} (hne : tokenizeList ws s ≠ []) {b : Bool} {e : Ers F}
    (h : parseF15 frames Ers.new ⟨tokenizeList ws s, 0⟩ = .ok (b, e)) :
    ∃ adep mid ades, e.elements = adep :: (mid ++ [ades]) ∧
      (∀ r ∈ mid, IsTok ws s r.start r.stop ∧ ElementOf (wordAt s r.start r.stop) r) ∧
      (∀ x ∈ e.errors, IsTok ws s x.start x.stop ∧ ∃ n, ErrorIs (wordAt s x.start x.stop) n x) ∧
      mid.Pairwise Apart ∧
      (∀ x ∈ e.errors, ∀ r ∈ mid ++ e.errors, Apart x r ∨ (x.start = r.start ∧ x.stop = r.stop)) := by
  obtain ⟨ts, adep, mid, ades, h1, h2, others, h3⟩ := c18_c19 h
  obtain ⟨new, h4, h5⟩ := c17 (by simp [Ers.elements, Ers.new, Ers.addDummyAdepAdes, Ers.createAppendElement, Ers.appendElement]) hne h
  have h4 : e.errors = new := by simpa [Ers.errors, Ers.new, Ers.addDummyAdepAdes, Ers.createAppendElement, Ers.appendElement] using h4
  subst h4
  have hp := words_apart ws s
  have sym : ∀ u ∈ typedTokens ⟨tokenizeList ws s, 0⟩, ∀ v ∈ typedTokens ⟨tokenizeList ws s, 0⟩, (u.stop ≤ v.start ∨ v.stop ≤ u.start) ∨ u = v := by
    intro u hu v hv
    obtain ⟨i, hi⟩ := List.mem_iff_getElem.1 hu
    obtain ⟨j, hj⟩ := List.mem_iff_getElem.1 hv
    obtain ⟨hi, rfl⟩ := hi
    obtain ⟨hj, rfl⟩ := hj
    rw [List.pairwise_iff_getElem] at hp
    rcases Nat.lt_trichotomy i j with hl | rfl | hg
    · exact .inl (.inl (hp i j hi hj hl))
    · exact .inr rfl
    · exact .inl (.inr (hp j i hj hi hg))
  have of : ∀ r ∈ mid, ∃ t ∈ ts, ElementOf t r := by
    clear h1 h3
    induction h2 with
    | nil => intro r hr; cases hr
    | cons hel _ ih =>
      intro r hr
      rcases List.mem_cons.1 hr with rfl | hr
      · exact ⟨_, by simp, hel⟩
      · obtain ⟨t, ht, hr⟩ := ih r hr; exact ⟨t, by simp [ht], hr⟩
  have mem : ∀ t ∈ ts, t ∈ typedTokens ⟨tokenizeList ws s, 0⟩ := fun t ht => h3.subset (by simp [ht])
  have src : ∀ r ∈ mid ++ e.errors, ∃ t ∈ typedTokens ⟨tokenizeList ws s, 0⟩, r.start = t.start ∧ r.stop = t.stop := by
    intro r hr
    rcases List.mem_append.1 hr with hr | hr
    · obtain ⟨t, ht, hel⟩ := of r hr; exact ⟨t, mem t ht, hel.1, hel.2.1⟩
    · obtain ⟨t, ht, n, _, _, rfl⟩ := h5 r hr; exact ⟨t, ht, rfl, rfl⟩
  refine ⟨adep, mid, ades, h1, fun r hr => ?_, fun x hx => ?_, ?_, fun x hx r hr => ?_⟩
  · obtain ⟨t, ht, hel⟩ := of r hr
    obtain ⟨k1, k2⟩ := typed_wordAt (mem t ht)
    rw [hel.1, hel.2.1, ← k2]
    exact ⟨k1, hel⟩
  · obtain ⟨t, ht, n, herr⟩ := h5 x hx
    obtain ⟨k1, k2⟩ := typed_wordAt ht
    have hs : x.start = t.start ∧ x.stop = t.stop := by obtain ⟨_, _, rfl⟩ := herr; exact ⟨rfl, rfl⟩
    rw [hs.1, hs.2, ← k2]
    exact ⟨k1, n, herr⟩
  · have ha : (ts ++ others).Pairwise fun u v => u.stop ≤ v.start ∨ v.stop ≤ u.start := by
      refine (h3.pairwise_iff fun {u v} huv => huv.symm).2 (hp.imp fun huv => .inl huv)
    have hb : ts.Pairwise fun u v => u.stop ≤ v.start ∨ v.stop ≤ u.start := (List.pairwise_append.1 ha).1
    clear h1 h3 of mem src ha
    induction h2 with
    | nil => exact .nil
    | @cons t ts r rs hel hels ih =>
      rw [List.pairwise_cons] at hb ⊢
      refine ⟨fun r' hr' => ?_, ih hb.2⟩
      have : ∃ t' ∈ ts, ElementOf t' r' := by
        clear ih hb
        induction hels with
        | nil => cases hr'
        | cons hel' _ ih =>
          rcases List.mem_cons.1 hr' with rfl | hr'
          · exact ⟨_, by simp, hel'⟩
          · obtain ⟨t, ht, hr⟩ := ih hr'; exact ⟨t, by simp [ht], hr⟩
      obtain ⟨t', ht', hel'⟩ := this
      unfold Apart
      rw [hel.1, hel.2.1, hel'.1, hel'.2.1]
      exact hb.1 t' ht'
  · obtain ⟨t, ht, k1, k2⟩ := src x (by simp [hx])
    obtain ⟨t', ht', k1', k2'⟩ := src r hr
    unfold Apart
    rw [k1, k2, k1', k2']
    rcases sym t ht t' ht' with hc | rfl
    · exact .inl hc
    · exact .inr ⟨rfl, rfl⟩

/-- Elements and errors with their places in the text; the second word is both. -/
example : check (py! "N0450F350  9150N00000E/N0460F371 ?") (fun b e => !b &&
    (e.elements.map (fun r => (r.name, r.start, r.stop)) = [(py! "ADEP", 0, 0), (py! "9150N00000E", 11, 22), (py! "ADES", 0, 0)]) &&
    (e.errors.map (fun r => (r.name, r.start, r.stop)) = [(py! "9150N00000E", 11, 22), (py! "N0460F371", 23, 32), (py! "?", 33, 34)])) = true := by
  decide +kernel

end F15
