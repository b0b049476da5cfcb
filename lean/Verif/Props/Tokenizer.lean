import Verif.Lemmas.Tokenizer
/-!
# C01–C05: the tokenizer

`tokenizeList ws s` is the list of tokens produced by a fresh `Tokenize` object for the string `s` with
separators `ws` (the usage pattern of README.md).
-/

namespace F15
open Spec

theorem tokenizeList_eq (ws s : Str) :
    tokenizeList ws s = (Tokenize.loop ws s 0 [] Tokens.new).toks := rfl

/-- **C01** Token locations are exact: `0 ≤ start < end ≤ len(source)` and `source[start:end]` is the
token text. -/
theorem c01_locations (ws src : Str) (t : Token) (ht : t ∈ tokenizeList ws src) :
    t.start < t.stop ∧ t.stop ≤ src.length ∧ piece src t.start t.stop = t.text ∧
      t.text.length = t.stop - t.start := by
  obtain ⟨h, hk⟩ := (loop_spec ws src src 0 [] Tokens.new (tokInv_init ws src)).1 t ht
  have h1 : t.start < t.stop ∧ t.stop ≤ src.length := by
    rcases hk with hr | hs
    · exact ⟨hr.1, hr.2.1⟩
    · have e := hs.1
      have : t.start < src.length := by
        rcases Nat.lt_or_ge t.start src.length with h' | h'
        · exact h'
        · have := hs.2.1; simp [List.getElem?_eq_none h'] at this
      omega
  have ht' : piece src t.start t.stop = t.text := by
    conv => rhs; rw [h]
    rfl
  refine ⟨h1.1, h1.2, ht', ?_⟩
  rw [← ht']
  simp [piece]
  omega

/-- **C02** Tokens are listed in source order and do not overlap. -/
theorem c02_disjoint (ws src : Str) :
    (tokenizeList ws src).Pairwise fun a b => a.start < a.stop ∧ a.stop ≤ b.start ∧ b.start < b.stop := by
  have h := (loop_spec ws src src 0 [] Tokens.new (tokInv_init ws src)).2.2
  rw [← tokenizeList_eq] at h
  refine List.Pairwise.imp_of_mem ?_ h
  intro a b ha hb hab
  exact ⟨(c01_locations ws src a ha).1, hab, (c01_locations ws src b hb).1⟩

/-- **C03** The tokens are exactly the maximal runs of non-separators plus the single slashes. -/
theorem c03_tokens_iff (ws src : Str) (i j : Nat) :
    (∃ t ∈ tokenizeList ws src, t.start = i ∧ t.stop = j) ↔ IsRun ws src i j ∨ IsSlash ws src i j := by
  have h := loop_spec ws src src 0 [] Tokens.new (tokInv_init ws src)
  constructor
  · rintro ⟨t, ht, rfl, rfl⟩
    exact (h.1 t ht).2
  · exact h.2.1 i j

/-- **C03** (consequence) No non-separator character is lost: it lies inside some token. -/
theorem c03_nothing_lost (ws src : Str) (k : Nat) (c : Char) (hk : src[k]? = some c) (hc : c ∉ ws) :
    ∃ t ∈ tokenizeList ws src, t.start ≤ k ∧ k < t.stop := by
  have hklt : k < src.length := by
    rcases Nat.lt_or_ge k src.length with h' | h'
    · exact h'
    · simp [List.getElem?_eq_none h'] at hk
  have hns : ¬ SepAt ws src k := by
    rintro ⟨d, hd, hw⟩
    rw [hk] at hd
    obtain rfl : c = d := by simpa using hd
    exact hc hw
  -- start of the run
  have hstart : ∀ n, n ≤ k → (∀ m, n < m → m ≤ k → ¬ SepAt ws src m) →
      ∃ i, i ≤ k ∧ (∀ m, i ≤ m → m ≤ k → ¬ SepAt ws src m) ∧ (i = 0 ∨ SepAt ws src (i - 1)) := by
    intro n
    induction n with
    | zero =>
      intro _ hcl
      by_cases h0 : SepAt ws src 0
      · have hk0 : k ≠ 0 := fun h => hns (h ▸ h0)
        exact ⟨1, by omega, fun m h1 h2 => hcl m (by omega) h2, .inr h0⟩
      · refine ⟨0, by omega, fun m h1 h2 => ?_, .inl rfl⟩
        rcases Nat.eq_zero_or_pos m with rfl | hm
        · exact h0
        · exact hcl m hm h2
    | succ n ih =>
      intro hn hcl
      by_cases h0 : SepAt ws src (n + 1)
      · have : n + 1 ≠ k := fun h => hns (h ▸ h0)
        exact ⟨n + 2, by omega, fun m h1 h2 => hcl m (by omega) h2, .inr (by simpa using h0)⟩
      · refine ih (by omega) fun m h1 h2 => ?_
        rcases Nat.lt_or_ge (n + 1) m with h | h
        · exact hcl m h h2
        · have : m = n + 1 := by omega
          exact this ▸ h0
  have hstop : ∀ d n, n + d = src.length → k < n → (∀ m, k ≤ m → m < n → ¬ SepAt ws src m) →
      ∃ j, k < j ∧ j ≤ src.length ∧ (∀ m, k ≤ m → m < j → ¬ SepAt ws src m) ∧
        (j = src.length ∨ SepAt ws src j) := by
    intro d
    induction d with
    | zero => intro n hn hk hcl; exact ⟨n, hk, by omega, hcl, .inl (by omega)⟩
    | succ d ih =>
      intro n hn hk hcl
      by_cases h0 : SepAt ws src n
      · exact ⟨n, hk, by omega, hcl, .inr h0⟩
      · refine ih (n + 1) (by omega) (by omega) fun m h1 h2 => ?_
        rcases Nat.lt_or_ge m n with h | h
        · exact hcl m h1 h
        · have : m = n := by omega
          exact this ▸ h0
  obtain ⟨i, hi, hicl, his⟩ := hstart k (Nat.le_refl _) (by intros; omega)
  obtain ⟨j, hj, hjl, hjcl, hje⟩ := hstop (src.length - (k + 1)) (k + 1) (by omega) (by omega)
    (by intro m h1 h2; have : m = k := by omega
        exact this ▸ hns)
  have hrun : IsRun ws src i j := by
    refine ⟨by omega, hjl, fun m h1 h2 => ?_, his, hje⟩
    rcases Nat.lt_or_ge m k with h | h
    · exact hicl m h1 (by omega)
    · exact hjcl m h h2
  obtain ⟨t, ht, rfl, rfl⟩ := (c03_tokens_iff ws src i j).2 (.inl hrun)
  exact ⟨t, ht, hi, hj⟩

/-- **C03** (consequence) A separator occurs in a token only if the token is a lone slash. -/
theorem c03_no_separator_in_token (ws src : Str) (t : Token) (ht : t ∈ tokenizeList ws src) :
    (∀ c ∈ t.text, c ∉ ws) ∨ (t.text = ['/'] ∧ '/' ∈ ws) := by
  obtain ⟨h, hk⟩ := (loop_spec ws src src 0 [] Tokens.new (tokInv_init ws src)).1 t ht
  have hx : t.text = piece src t.start t.stop := by rw [h]; rfl
  rcases hk with hr | hs
  · left
    intro c hc hw
    rw [hx] at hc
    obtain ⟨n, hn, hcn⟩ := List.getElem_of_mem hc
    have hlen : n < t.stop - t.start := by
      have : (piece src t.start t.stop).length ≤ t.stop - t.start := by simp [piece]; omega
      omega
    have : src[t.start + n]? = some c := by
      have h1 : (piece src t.start t.stop)[n]? = some c := by rw [List.getElem?_eq_getElem hn, hcn]
      unfold piece at h1
      rw [List.getElem?_drop, List.getElem?_take] at h1
      split at h1
      · exact h1
      · simp at h1
    exact hr.2.2.1 (t.start + n) (by omega) (by omega) ⟨c, this, hw⟩
  · right
    refine ⟨?_, hs.2.2⟩
    have h1 := hs.1
    rw [hx, h1, piece, List.take_add_one, hs.2.1]
    have : t.start < src.length := by
      rcases Nat.lt_or_ge t.start src.length with h' | h'
      · exact h'
      · have := hs.2.1; simp [List.getElem?_eq_none h'] at this
    rw [List.drop_append_of_le_length (by simp; omega)]
    simp

/-- **C03** New tokens are untyped; nothing but positions and text is recorded. -/
theorem c03_untyped (ws src : Str) (t : Token) (ht : t ∈ tokenizeList ws src) :
    t.base = .UNKNOWN ∧ t.sub = .UNKNOWN := by
  have h := ((loop_spec ws src src 0 [] Tokens.new (tokInv_init ws src)).1 t ht).1
  rw [h]; exact ⟨rfl, rfl⟩

/-- **C04** The sequence of token texts does not depend on the layout of blank space: any source
consisting of the texts `ts` with blank space around them (at least one blank between two words) gives
exactly `ts`. -/
theorem c04_layout (ws src : Str) (ts : List Str) (h : Layout ws ts src) :
    (tokenizeList ws src).map (·.text) = ts := by
  rw [tokenizeList_eq, loop_texts]
  simpa [Tokens.new] using pieces_layout h

/-- Every source has a layout: `c04_layout` covers all sources. -/
theorem pieces_layout_exists (ws : Str) : ∀ (src text : Str), (∀ c ∈ text, c ∉ ws) →
    Layout ws (pieces ws src text) (text ++ src) := by
  intro src
  induction src with
  | nil =>
    intro text ht
    cases text with
    | nil => exact .nil (by intro c hc; simp at hc)
    | cons c r =>
      have := Layout.word (ws := ws) (g := []) (t := c :: r) (by intro c hc; simp at hc) ⟨by simp, ht⟩
      simpa [pieces] using this
  | cons c r ih =>
    intro text ht
    by_cases hc : c ∈ ws
    · have ih' := ih [] (by simp)
      have hsub : Layout ws ((if c = '/' then [['/']] else []) ++ pieces ws r []) (c :: r) := by
        by_cases hs : c = '/'
        · subst hs
          simpa using Layout.slash (g := []) (by intro c hc; simp at hc) hc ih'
        · simp only [hs, if_false, List.nil_append]
          have hgap : ∀ {ts s}, Layout ws ts s → Layout ws ts (c :: s) := by
            intro ts s hl
            have hcg : ∀ {g : Str}, Gap ws g → Gap ws (c :: g) := by
              intro g hg d hd
              rcases List.mem_cons.1 hd with rfl | hd
              · exact ⟨hc, hs⟩
              · exact hg d hd
            cases hl with
            | nil hg => exact .nil (hcg hg)
            | word hg hw => exact .word (g := c :: _) (hcg hg) hw
            | wordSep hg hw hd hl => exact .wordSep (g := c :: _) (hcg hg) hw hd hl
            | slash hg hsl hl => exact .slash (g := c :: _) (hcg hg) hsl hl
          exact hgap (by simpa using ih')
      simp only [pieces, hc, if_true]
      cases text with
      | nil => simpa using hsub
      | cons a b =>
        have := Layout.wordSep (g := []) (t := a :: b) (by intro c hc; simp at hc) ⟨by simp, ht⟩ hc hsub
        simpa using this
    · have := ih (text ++ [c]) (by
        intro d hd
        rcases List.mem_append.1 hd with h | h
        · exact ht d h
        · simp at h; exact h ▸ hc)
      simpa [pieces, hc] using this

/-- **C04** Conversely every source is a layout of its token texts. -/
theorem c04_layout_exists (ws src : Str) : Layout ws ((tokenizeList ws src).map (·.text)) src := by
  rw [tokenizeList_eq, loop_texts]
  simpa [Tokens.new] using pieces_layout_exists ws src [] (by simp)

/-- Join texts, each followed by the separator `c`. -/
def joinSep (c : Char) (ts : List Str) : Str := ts.flatMap fun t => t ++ [c]

/-- **C04** Re-tokenizing the texts joined by single separators gives the same texts back. -/
theorem c04_retokenize (ws src : Str) (c : Char) (hc : c ∈ ws) (hs : c ≠ '/') :
    (tokenizeList ws (joinSep c ((tokenizeList ws src).map (·.text)))).map (·.text)
      = (tokenizeList ws src).map (·.text) := by
  apply c04_layout
  have hall : ∀ x ∈ (tokenizeList ws src).map (·.text), TokText ws x := by
    intro x hx
    obtain ⟨t, ht, rfl⟩ := List.mem_map.1 hx
    rcases c03_no_separator_in_token ws src t ht with h | h
    · left
      refine ⟨?_, h⟩
      have := c01_locations ws src t ht
      intro he
      have := this.2.2.2
      rw [he] at this
      simp at this; omega
    · exact .inr h
  have hgap : ∀ {ts s}, Layout ws ts s → Layout ws ts (c :: s) := by
    intro ts s hl
    have hcg : ∀ {g : Str}, Gap ws g → Gap ws (c :: g) := by
      intro g hg d hd
      rcases List.mem_cons.1 hd with rfl | hd
      · exact ⟨hc, hs⟩
      · exact hg d hd
    cases hl with
    | nil hg => exact .nil (hcg hg)
    | word hg hw => exact .word (g := c :: _) (hcg hg) hw
    | wordSep hg hw hd hl => exact .wordSep (g := c :: _) (hcg hg) hw hd hl
    | slash hg hsl hl => exact .slash (g := c :: _) (hcg hg) hsl hl
  revert hall
  generalize (tokenizeList ws src).map (·.text) = ts
  intro hall
  induction ts with
  | nil => exact .nil (by intro c hc; simp [joinSep] at hc)
  | cons t ts ih =>
    have ih' := ih fun x hx => hall x (List.mem_cons_of_mem _ hx)
    have hj : joinSep c (t :: ts) = t ++ c :: joinSep c ts := by simp [joinSep]
    rw [hj]
    rcases hall t (by simp) with hw | ⟨rfl, hsl⟩
    · exact Layout.wordSep (g := []) (by intro c hc; simp at hc) hw hc (hgap ih')
    · exact Layout.slash (g := []) (by intro c hc; simp at hc) hsl (hgap ih')

/-- Two sources that are layouts of each other's texts get the same token texts (e.g. a blank replaced
by another, or doubled). -/
theorem c04_same_layout (ws src src' : Str) (ts : List Str) (h : Layout ws ts src) (h' : Layout ws ts src') :
    (tokenizeList ws src).map (·.text) = (tokenizeList ws src').map (·.text) := by
  rw [c04_layout ws src ts h, c04_layout ws src' ts h']

/-! ### C05 -/

/-- Calls on a `Tokenize` object. -/
inductive TokOp
  | setString (s : Str)
  | setWs (w : Str)
  | tokenize

/-- The effect of a call. -/
def TokOp.run (t : Tokenize) : TokOp → Tokenize
  | .setString s => t.setStringToTokenize s
  | .setWs w => t.setWhitespace w
  | .tokenize => t.tokenize

/-- The string in force after a history (the initial object has the empty string). -/
def lastString : List TokOp → Str → Str
  | [], s => s
  | .setString s :: r, _ => lastString r s
  | _ :: r, s => lastString r s

/-- The separators in force after a history. -/
def lastWs : List TokOp → Str → Str
  | [], w => w
  | .setWs w :: r, _ => lastWs r w
  | _ :: r, w => lastWs r w

/-- **C05** After any history the tokens are those of the string and separators in force at the last
`tokenize()`; later setter calls do not change them. -/
theorem c05_reuse (before after : List TokOp) (t : Tokenize) (hafter : ∀ o ∈ after, o ≠ .tokenize) :
    ((before ++ .tokenize :: after).foldl TokOp.run t).getTokens.toks
      = tokenizeList (lastWs before t.whitespace) (lastString before t.string) := by
  have h1 : ∀ (ops : List TokOp) (t : Tokenize), (ops.foldl TokOp.run t).string = lastString ops t.string ∧
      (ops.foldl TokOp.run t).whitespace = lastWs ops t.whitespace := by
    intro ops
    induction ops with
    | nil => intro t; exact ⟨rfl, rfl⟩
    | cons o r ih =>
      intro t
      cases o <;> exact ⟨(ih _).1, (ih _).2⟩
  have h2 : ∀ (ops : List TokOp) (t : Tokenize), (∀ o ∈ ops, o ≠ TokOp.tokenize) →
      (ops.foldl TokOp.run t).tokens = t.tokens := by
    intro ops
    induction ops with
    | nil => intro t _; rfl
    | cons o r ih =>
      intro t ho
      have := ih (TokOp.run t o) fun o' ho' => ho o' (List.mem_cons_of_mem _ ho')
      rw [List.foldl_cons, this]
      cases o with
      | setString s => rfl
      | setWs w => rfl
      | tokenize => exact (ho .tokenize (by simp) rfl).elim
  rw [List.foldl_append, List.foldl_cons]
  unfold Tokenize.getTokens
  rw [h2 _ _ hafter]
  show ((before.foldl TokOp.run t).tokenize).tokens.toks = _
  rw [tokenizeList_eq]
  unfold Tokenize.tokenize
  rw [(h1 before t).1, (h1 before t).2]

/-- **C05** The tokens are a fresh list: the cursor is at the first token, whatever happened before. -/
theorem c05_cursor_reset (before : List TokOp) (t : Tokenize) :
    ((before ++ [TokOp.tokenize]).foldl TokOp.run t).getTokens.cur = 0 := by
  have h : ∀ (ws s : Str) (idx : Nat) (text : Str) (acc : Tokens),
      (Tokenize.loop ws s idx text acc).cur = acc.cur := by
    intro ws s
    induction s with
    | nil => intro idx text acc; simp only [Tokenize.loop, Tokenize.saveToken]; split <;> rfl
    | cons c r ih =>
      intro idx text acc
      simp only [Tokenize.loop]
      split
      · rw [ih]
        simp only [Tokenize.saveToken]
        split <;> split <;> (try split) <;> rfl
      · exact ih _ _ _
  rw [List.foldl_append]
  show (Tokenize.loop _ _ 0 [] Tokens.new).cur = 0
  rw [h]; rfl

/-! ### Non-trivial instances -/

/-- `"N0450F350  PNT/M082F330"` has four tokens; the slash is one of them. -/
example : (tokenizeList f15Whitespace (py! "N0450F350  PNT/M082F330")).map (fun t => (t.text, t.start, t.stop))
    = [(py! "N0450F350", 0, 9), (py! "PNT", 11, 14), (py! "/", 14, 15), (py! "M082F330", 15, 23)] := by
  decide

/-- `IsRun` and `IsSlash` hold of those intervals. -/
example : IsRun f15Whitespace (py! "A  PNT/X") 3 6 ∧ IsSlash f15Whitespace (py! "A  PNT/X") 6 7 := by
  refine ⟨?_, rfl, rfl, by decide⟩
  refine ⟨by decide, by decide, ?_, .inr ⟨' ', rfl, by decide⟩, .inr ⟨'/', rfl, by decide⟩⟩
  rintro k h1 h2 ⟨c, hc, hw⟩
  have : k = 3 ∨ k = 4 ∨ k = 5 := by omega
  rcases this with rfl | rfl | rfl <;> simp at hc <;> subst hc <;> revert hw <;> decide

/-- `Layout` is inhabited by a source with mixed blanks. -/
example : Layout f15Whitespace [py! "PNT", py! "/", py! "X"] (py! " \tPNT\n/X") := by
  have h1 : Layout f15Whitespace [py! "X"] (py! "X") :=
    .word (g := []) (by intro c hc; simp at hc) ⟨by simp, by decide⟩
  have h2 : Layout f15Whitespace [py! "/", py! "X"] (py! "\n/X") :=
    .slash (g := ['\n']) (by unfold Gap; decide) (by decide) h1
  exact .wordSep (g := [' ', '\t']) (t := py! "PNT") (by unfold Gap; decide) ⟨by simp, by decide⟩ (by decide) h2

/-- A history with two strings and a setter after the last `tokenize`. -/
example : (([.setString (py! "A B"), .tokenize, .setWs f15Whitespace, .setString (py! "C/D"), .tokenize,
    .setString (py! "ZZZ")] : List TokOp).foldl TokOp.run Tokenize.new).getTokens.toks.map (·.text)
      = [py! "C", py! "/", py! "D"] := by decide

end F15
