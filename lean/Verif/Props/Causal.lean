import Verif.Lemmas.Causal2
import Verif.Lemmas.Fuel
import Verif.Props.Sequence
import Verif.Props.Tokenizer
import Verif.Spec.Causal
import Verif.Spec.Example
/-!
# C53: what has been extracted does not depend on what follows

If two field 15 have the same beginning, then the elements and the errors extracted from that beginning are the same,
whatever follows. Only the newest two elements can still change, and only what concerns the last three tokens of the beginning
is still open.
-/

namespace F15
open Spec

set_option linter.unusedSectionVars false
variable {F : Type} [PyFloat F]

theorem Ext2.ne {S : Token → Prop} {e0 d : Ers F} (h : Ext2 S e0 d) : d.recs ≠ [] := by
  obtain ⟨_, _, k, m, _⟩ := h.recs
  rw [k]; generalize e0.recs = z at m; cases m; simp

/-- Both runs extend a common state. -/
theorem run_common {pre x y : List Token} {t : Token} {p : List Token} (hpre : pre = t :: p)
    (hx : ∀ u ∈ pre ++ x, Typed u) (hy : ∀ u ∈ pre ++ y, Typed u) {n : Nat} {e : Ers F} (he : e.recs ≠ []) {e1 e2 : Ers F}
    (h1 : runL n e t (p ++ x) = .ok e1) (h2 : runL n e t (p ++ y) = .ok e2) :
    ∃ e0 d1 d2, e1 = post t d1 ∧ e2 = post t d2 ∧ Ext2 (Tail3 pre x) e0 d1 ∧ Ext2 (Tail3 pre y) e0 d2 := by
  subst hpre
  have hm : ∀ z, t ∈ (t :: p) ++ z := fun z => by simp
  have ih := duo_exec (F := F) hx hy n
  have hsuf : p <:+ t :: p := List.suffix_cons _ _
  have duo : ∀ c, argOf c = [t] → PreD p c →
      Duo (t :: p) x y (exec n c (⟨e, p ++ x⟩ : St (List Token) F)) (exec n c ⟨e, p ++ y⟩) := fun c ha hc =>
    ih c e p he hsuf (by rw [ha]; exact arg_one (arg_head (List.suffix_refl _))) hc
  have key : ∀ {d1 d2 : Ers F} {ts1 ts2}, Duo (t :: p) x y (done d1 ts1) (done d2 ts2) →
      ∃ e0, Ext2 (Tail3 (t :: p) x) e0 d1 ∧ Ext2 (Tail3 (t :: p) y) e0 d2 := by
    intro d1 d2 ts1 ts2 h
    generalize hr1 : (done d1 ts1 : Res F) = r1 at h
    generalize hr2 : (done d2 ts2 : Res F) = r2 at h
    cases h with
    | left => cases hr1
    | right => cases hr2
    | same e' p' h1 h2 => cases hr1; cases hr2; exact ⟨_, Ext2.refl h1, Ext2.refl h1⟩
    | apart e0 _ _ h1 h2 => exact ⟨e0, (h1 _ _ hr1.symm).1, (h2 _ _ hr2.symm).1⟩
  unfold runL at h1 h2
  have plain : ∀ c, argOf c = [t] → PreD p c →
      (match exec n c (⟨e, p ++ x⟩ : St (List Token) F) with | .ok (_, s) => .ok s.ers | .error x => .error x : Except PyErr (Ers F)) = .ok e1 →
      (match exec n c (⟨e, p ++ y⟩ : St (List Token) F) with | .ok (_, s) => .ok s.ers | .error x => .error x : Except PyErr (Ers F)) = .ok e2 →
      ∃ e0, Ext2 (Tail3 (t :: p) x) e0 e1 ∧ Ext2 (Tail3 (t :: p) y) e0 e2 := by
    intro c ha hc g1 g2
    have hd := duo c ha hc
    cases r1 : exec n c (⟨e, p ++ x⟩ : St (List Token) F) with
    | error u => rw [r1] at g1; cases g1
    | ok q1 =>
      cases r2 : exec n c (⟨e, p ++ y⟩ : St (List Token) F) with
      | error u => rw [r2] at g2; cases g2
      | ok q2 =>
        rw [r1] at g1; rw [r2] at g2; rw [r1, r2] at hd
        cases g1; cases g2
        exact key hd
  have nopost : t.base ≠ .SPEED_VFR → ∀ d : Ers F, post t d = d := fun h d => by unfold post; rw [if_neg h]
  cases hb : t.base <;> rw [hb] at h1 h2
  case SPEED_VFR =>
    dsimp only at h1 h2
    have hd := duo (.assignSpeedVfr t) rfl ⟨by simp [argOf], hb⟩
    cases r1 : exec n (.assignSpeedVfr t) (⟨e, p ++ x⟩ : St (List Token) F) with
    | error u => rw [r1] at h1; cases h1
    | ok q1 =>
      cases r2 : exec n (.assignSpeedVfr t) (⟨e, p ++ y⟩ : St (List Token) F) with
      | error u => rw [r2] at h2; cases h2
      | ok q2 =>
        rw [r1] at h1; rw [r2] at h2; rw [r1, r2] at hd
        obtain ⟨e0, k1, k2⟩ := key hd
        have n1 : q1.2.ers.recs ≠ [] := k1.ne
        have n2 : q2.2.ers.recs ≠ [] := k2.ne
        refine ⟨e0, q1.2.ers, q2.2.ers, ?_, ?_, k1, k2⟩
        · dsimp only at h1; rw [setFirst_eq _ n1] at h1; unfold post; rw [if_pos hb]; exact (Except.ok.inj h1).symm
        · dsimp only at h2; rw [setFirst_eq _ n2] at h2; unfold post; rw [if_pos hb]; exact (Except.ok.inj h2).symm
  case SPEED_ALTITUDE =>
    dsimp only at h1 h2
    have hd := duo (.assignSpeedAltitude t) rfl ⟨by simp [argOf], hb⟩
    have np := nopost (by rw [hb]; decide)
    cases r1 : exec n (.assignSpeedAltitude t) (⟨e, p ++ x⟩ : St (List Token) F) with
    | error u => rw [r1] at h1; cases h1
    | ok q1 =>
      cases r2 : exec n (.assignSpeedAltitude t) (⟨e, p ++ y⟩ : St (List Token) F) with
      | error u => rw [r2] at h2; cases h2
      | ok q2 =>
        rw [r1] at h1; rw [r2] at h2
        rw [r1, r2] at hd
        have fin : ∀ {z : List Token} {e0 : Ers F} {q : Unit × St (List Token) F} {d : Ers F}, (∀ u ∈ (t :: p) ++ z, Typed u) →
            exec n (.assignSpeedAltitude t) (⟨e, p ++ z⟩ : St (List Token) F) = .ok q →
            Ext2 (Tail3 (t :: p) z) e0 q.2.ers →
            (if p ++ z = [] then
              match exec n (.addErrorAndReSync t 49) q.2 with
              | .ok (_, s') => .ok s'.ers
              | .error x => .error x
            else .ok q.2.ers : Except PyErr (Ers F)) = .ok d → Ext2 (Tail3 (t :: p) z) e0 d := by
          intro z e0 q d hz hq hxt hfin
          split at hfin
          · rename_i hnil
            have hp0 : p = [] := (List.append_eq_nil_iff.1 hnil).1
            have hz0 : z = [] := (List.append_eq_nil_iff.1 hnil).2
            subst hp0; subst hz0
            have o := only_call hz n (.assignSpeedAltitude t) (e0 := e) (ts := []) he (Ext2.refl he) (by simp)
              (by intro u hu; simp only [argOf, List.mem_singleton] at hu; subst hu; exact ⟨by simp, .inl (.inl (by simp))⟩)
              ⟨by simp [argOf], hb⟩ q.2.ers q.2.toks hq
            have o2 := only_call hz n (.addErrorAndReSync t 49) (e0 := e0) (e := q.2.ers) (ts := q.2.toks) o.2.1 hxt o.2.2
              (by intro u hu; simp only [argOf, List.mem_singleton] at hu; subst hu; exact ⟨by simp, .inl (.inl (by simp))⟩)
              ⟨by simp [argOf], by decide⟩
            cases r : exec n (.addErrorAndReSync t 49) q.2 with
            | error u => rw [r] at hfin; cases hfin
            | ok v => rw [r] at hfin; cases hfin; exact (o2 v.2.ers v.2.toks r).1
          · cases hfin; exact hxt
        obtain ⟨e0, k1, k2⟩ := key hd
        exact ⟨e0, e1, e2, (np _).symm, (np _).symm, fin hx r1 k1 h1, fin hy r2 k2 h2⟩
  all_goals
    obtain ⟨e0, k1, k2⟩ := plain (.addErrorAndReSync t 1) rfl ⟨by simp [argOf], by decide⟩ h1 h2
    have np := nopost (by rw [hb]; decide)
    exact ⟨e0, e1, e2, (np _).symm, (np _).symm, k1, k2⟩

/-- What `post` and the ADES leave of an extension. -/
theorem ext_final {S : Token → Prop} {t : Token} {e0 d : Ers F} (h : Ext2 S e0 d) :
    ∃ (new l' : List (Record F)) (ades : Record F), (finErs (post t d)).elements = l'.reverse ++ new.reverse ++ [ades] ∧ Placeholder (py! "ADES") ades ∧
      (∃ l, Near2 e0.recs l ∧ l' = if t.base = .SPEED_VFR then mapOldest toVfr l else l) ∧
      (∀ r ∈ new, ∃ u, (S u ∨ Refused (finErs (post t d)) u) ∧ ElementOf u r) := by
  obtain ⟨new, l, h1, h2, h3⟩ := h.recs
  have hne : l ≠ [] := by
    generalize e0.recs = z at h2; cases h2; simp
  obtain ⟨a, o, rfl⟩ := split_last l hne
  have hpr := post_recs t d (new ++ a) o (by rw [h1, List.append_assoc])
  have herr : (finErs (post t d)).errors = d.errs.reverse := by
    show (post t d).errs.reverse = _; rw [post_errs]
  refine ⟨new, a ++ [if t.base = .SPEED_VFR then toVfr o else o], adesRec (((post t d).recs.head?.map (·.rules)).getD []), ?_,
    ⟨rfl, rfl, rfl, rfl, rfl⟩, ⟨a ++ [o], h2, ?_⟩, ?_⟩
  · rw [fin_elements]
    unfold Ers.elements
    rw [hpr]; simp
  · split
    · rw [mapOldest_append]
    · rfl
  · intro r hr
    obtain ⟨b, b1, ⟨T, b2⟩, b3, b4⟩ := h3 r hr
    refine ⟨b.tok, b4.imp_right fun h48 => ?_, elementOf_core b1 b2 b3⟩
    exact ⟨_, by rw [herr]; simpa using h48, errRec_is (by decide)⟩

/-- The settling elements. -/
theorem settle2 {l0 l1 l2 : List (Record F)} {f : Record F → Record F} (hc : ∀ r, core (f r) = core r)
    (ht : ∀ r r', Turned r r' → Turned (f r) (f r'))
    (h1 : Near2 l0 l1) (h2 : Near2 l0 l2) : ∃ past near1 near2, (mapOldest f l1).reverse = past ++ near1 ∧
      (mapOldest f l2).reverse = past ++ near2 ∧ Settling near1 near2 := by
  cases h1 with
  | mk c1 s1 =>
    cases h2 with
    | mk c2 s2 =>
      rename_i r r1 l l1 r2 l2
      have sm : ∀ r1 r2 : Record F, core r1 = core r → core r2 = core r → SameElement r1 r2 := fun _ _ h h' => core_same (h'.trans h.symm)
      cases s1 with
      | nil =>
        cases s2
        exact ⟨[], [f r1], [f r2], rfl, rfl, .one (sm _ _ ((hc _).trans c1) ((hc _).trans c2))⟩
      | cons t1 =>
        cases s2 with
        | cons t2 =>
          rename_i s s1 l s2
          have tt : Turned s1 s2 := by unfold Turned at *; rw [t2, t1]
          unfold mapOldest
          simp only [List.reverse_cons, List.append_assoc]
          cases hl : l.reverse with
          | nil => exact ⟨[], [f s1, r1], [f s2, r2], rfl, rfl, .two (ht _ _ tt) (sm _ _ c1 c2)⟩
          | cons o l => exact ⟨f o :: l, [s1, r1], [s2, r2], by simp [mapHead], by simp [mapHead], .two tt (sm _ _ c1 c2)⟩

/-- **C53** Two token lists with a common beginning `pre` (not empty) are parsed: the results have a common past. -/
theorem c53 {n1 n2 : Nat} {e : Ers F} (he : e.recs ≠ []) {tokens1 tokens2 : Tokens} {b1 b2 : Bool} {e1 e2 : Ers F}
    {pre x y : List Token} (hpre : pre ≠ []) (ht1 : typedTokens tokens1 = pre ++ x) (ht2 : typedTokens tokens2 = pre ++ y)
    (h1 : parseF15 n1 e tokens1 = .ok (b1, e1)) (h2 : parseF15 n2 e tokens2 = .ok (b2, e2)) : CommonPast pre x y e1 e2 := by
  have hx : ∀ u ∈ pre ++ x, Typed u := fun u hu => typed_map (l := tokens1.toks) (by rw [← ht1] at hu; exact hu)
  have hy : ∀ u ∈ pre ++ y, Typed u := fun u hu => typed_map (l := tokens2.toks) (by rw [← ht2] at hu; exact hu)
  rw [parse_eq] at h1 h2
  change parseL n1 e (typedTokens tokens1) = _ at h1
  change parseL n2 e (typedTokens tokens2) = _ at h2
  rw [ht1] at h1; rw [ht2] at h2
  cases hp : pre with
  | nil => exact absurd hp hpre
  | cons t p =>
    rw [hp] at h1 h2
    simp only [List.cons_append, parseL] at h1 h2
    have up : ∀ {n z c}, n ≤ max n1 n2 → runL n e t z = .ok c → runL (max n1 n2) e t z = .ok c := by
      intro n z c hn hr
      rcases le_runL hn e t z with h | h
      · rw [h] at hr; cases hr
      · rw [← h]; exact hr
    cases r1 : runL n1 e t (p ++ x) with
    | error u => rw [r1] at h1; cases h1
    | ok c1 =>
      cases r2 : runL n2 e t (p ++ y) with
      | error u => rw [r2] at h2; cases h2
      | ok c2 =>
        rw [r1] at h1; rw [r2] at h2
        obtain ⟨e0, d1, d2, rfl, rfl, k1, k2⟩ := run_common hp hx hy he (up (Nat.le_max_left _ _) r1) (up (Nat.le_max_right _ _) r2)
        dsimp only at h1 h2
        rw [finish_eq _ (post_ne t d1 k1.ne)] at h1
        rw [finish_eq _ (post_ne t d2 k2.ne)] at h2
        have q1 : finErs (post t d1) = e1 := (Prod.mk.inj (Except.ok.inj h1)).2
        have q2 : finErs (post t d2) = e2 := (Prod.mk.inj (Except.ok.inj h2)).2
        have herr : ∀ d : Ers F, (finErs (post t d)).errors = d.errs.reverse := fun d => by
          show (post t d).errs.reverse = _; rw [post_errs]
        rw [← hp]
        constructor
        · obtain ⟨new1, l1, ad1, a1, a2, ⟨m1, a3, a4⟩, a5⟩ := ext_final (t := t) k1
          obtain ⟨new2, l2, ad2, b1, b2, ⟨m2, b3, b4⟩, b5⟩ := ext_final (t := t) k2
          rw [q1] at a1 a5; rw [q2] at b1 b5
          have hs : ∃ past near1 near2, l1.reverse = past ++ near1 ∧ l2.reverse = past ++ near2 ∧ Settling near1 near2 := by
            subst a4; subst b4
            split
            · exact settle2 (f := toVfr) (fun _ => rfl) (fun r r' h => by unfold Turned at *; rw [h]; rfl) a3 b3
            · have := settle2 (f := id) (fun _ => rfl) (fun _ _ h => h) a3 b3
              have hid : ∀ l : List (Record F), mapOldest id l = l := fun l => by
                unfold mapOldest; cases hl : l.reverse with
                | nil => simp at hl; simp [hl, mapHead]
                | cons o z => simp only [mapHead, id]; rw [← hl]; simp
              rw [hid, hid] at this
              exact this
          obtain ⟨past, near1, near2, s1, s2, s3⟩ := hs
          refine ⟨past, near1, near2, new1.reverse, new2.reverse, ad1, ad2, by rw [a1, s1], by rw [b1, s2], s3, ?_, ?_, a2, b2⟩
          · intro r hr; exact a5 r (List.mem_reverse.1 hr)
          · intro r hr; exact b5 r (List.mem_reverse.1 hr)
        · obtain ⟨new1, f1, g1⟩ := k1.errs
          obtain ⟨new2, f2, g2⟩ := k2.errs
          refine ⟨e0.errs.reverse, new1.reverse, new2.reverse, ?_, ?_, ?_, ?_⟩
          · rw [← q1, herr, f1, List.reverse_append]
          · rw [← q2, herr, f2, List.reverse_append]
          · intro r hr
            obtain ⟨u, n, j1, j2, j3⟩ := g1 r (List.mem_reverse.1 hr)
            subst j1
            refine ⟨u, n, errRec_is j2, ?_⟩
            rcases j3 with (j | j) | j
            · exact .inl j
            · exact .inr (.inl ⟨_, by rw [← q1, herr]; simpa using j, errRec_is (by decide)⟩)
            · exact .inr (.inr j)
          · intro r hr
            obtain ⟨u, n, j1, j2, j3⟩ := g2 r (List.mem_reverse.1 hr)
            subst j1
            refine ⟨u, n, errRec_is j2, ?_⟩
            rcases j3 with (j | j) | j
            · exact .inl j
            · exact .inr (.inl ⟨_, by rw [← q2, herr]; simpa using j, errRec_is (by decide)⟩)
            · exact .inr (.inr j)

/-! ### Texts with a common beginning -/

theorem loop_extends (ws : Str) : ∀ (s : Str) (idx : Nat) (text : Str) (acc : Tokens),
    ∃ x, (Tokenize.loop ws s idx text acc).toks = acc.toks ++ x := by
  intro s
  have save : ∀ (acc : Tokens) (text : Str) (idx : Nat), ∃ x, (Tokenize.saveToken acc text idx).toks = acc.toks ++ x := by
    intro acc text idx
    rw [saveToken_toks]
    split
    · exact ⟨_, rfl⟩
    · exact ⟨[], by simp⟩
  induction s with
  | nil => intro idx text acc; exact save acc text idx
  | cons c s ih =>
    intro idx text acc
    unfold Tokenize.loop
    split
    · obtain ⟨x1, h1⟩ : ∃ x, (if text.length > 0 then Tokenize.saveToken acc text idx else acc).toks = acc.toks ++ x := by
        split
        · exact save _ _ _
        · exact ⟨[], by simp⟩
      dsimp only
      generalize (if text.length > 0 then Tokenize.saveToken acc text idx else acc) = acc1 at h1
      obtain ⟨x2, h2⟩ : ∃ x, (if c = '/' then Tokenize.saveToken acc1 [c] (idx + 1) else acc1).toks = acc1.toks ++ x := by
        split
        · exact save _ _ _
        · exact ⟨[], by simp⟩
      generalize (if c = '/' then Tokenize.saveToken acc1 [c] (idx + 1) else acc1) = acc2 at h2
      obtain ⟨x3, h3⟩ := ih (idx + 1) [] acc2
      exact ⟨x1 ++ x2 ++ x3, by rw [h3, h2, h1]; simp⟩
    · exact ih _ _ _

theorem loop_split (ws : Str) {c : Char} (hc : c ∈ ws) (rest : Str) : ∀ (s : Str) (idx : Nat) (text : Str) (acc : Tokens),
    ∃ x, (Tokenize.loop ws (s ++ c :: rest) idx text acc).toks = (Tokenize.loop ws s idx text acc).toks ++ x := by
  intro s
  induction s with
  | nil =>
    intro idx text acc
    show ∃ x, (Tokenize.loop ws (c :: rest) idx text acc).toks = (Tokenize.saveToken acc text idx).toks ++ x
    have : (if text.length > 0 then Tokenize.saveToken acc text idx else acc) = Tokenize.saveToken acc text idx := by
      unfold Tokenize.saveToken; split <;> simp_all
    rw [Tokenize.loop, if_pos (by simpa using hc), this]
    obtain ⟨x2, h2⟩ : ∃ x, (if c = '/' then Tokenize.saveToken (Tokenize.saveToken acc text idx) [c] (idx + 1)
        else Tokenize.saveToken acc text idx).toks = (Tokenize.saveToken acc text idx).toks ++ x := by
      split
      · rw [saveToken_toks]; exact ⟨_, rfl⟩
      · exact ⟨[], by simp⟩
    obtain ⟨x3, h3⟩ := loop_extends ws rest (idx + 1) [] (if c = '/' then Tokenize.saveToken (Tokenize.saveToken acc text idx) [c] (idx + 1)
        else Tokenize.saveToken acc text idx)
    exact ⟨x2 ++ x3, by dsimp only; rw [h3, h2]; simp⟩
  | cons d s ih =>
    intro idx text acc
    rw [List.cons_append, Tokenize.loop, Tokenize.loop]
    split
    · exact ih _ _ _
    · exact ih _ _ _

/-- The tokens of a text begin with those of its beginning up to a separator. -/
theorem tokens_begin (ws s : Str) {c : Char} (hc : c ∈ ws) (rest : Str) :
    ∃ x, tokenizeList ws (s ++ c :: rest) = tokenizeList ws s ++ x := by
  rw [tokenizeList_eq, tokenizeList_eq]
  exact loop_split ws hc rest s 0 [] Tokens.new

/-- **C53** Two field 15 begin with the same text `s`, followed by a separator, and go on differently. -/
theorem c53_text {n1 n2 : Nat} (ws s : Str) {c c' : Char} (hc : c ∈ ws) (hc' : c' ∈ ws) (rest rest' : Str)
    (hs : tokenizeList ws s ≠ []) {b1 b2 : Bool} {e1 e2 : Ers F}
    (h1 : parseF15 n1 Ers.new ⟨tokenizeList ws (s ++ c :: rest), 0⟩ = .ok (b1, e1))
    (h2 : parseF15 n2 Ers.new ⟨tokenizeList ws (s ++ c' :: rest'), 0⟩ = .ok (b2, e2)) :
    ∃ x y, tokenizeList ws (s ++ c :: rest) = tokenizeList ws s ++ x ∧ tokenizeList ws (s ++ c' :: rest') = tokenizeList ws s ++ y ∧
      CommonPast (typedTokens ⟨tokenizeList ws s, 0⟩) (typedTokens ⟨x, 0⟩) (typedTokens ⟨y, 0⟩) e1 e2 := by
  obtain ⟨x, hx⟩ := tokens_begin ws s hc rest
  obtain ⟨y, hy⟩ := tokens_begin ws s hc' rest'
  refine ⟨x, y, hx, hy, c53 new_ne ?_ ?_ ?_ h1 h2⟩
  · unfold typedTokens; simpa using hs
  · unfold typedTokens; rw [hx]; simp
  · unfold typedTokens; rw [hy]; simp

/-- **C53** In particular every element of the first parse that ends before the last three words of the common text begin is, with its
name, indices, types and position, an element of the second parse. (Unless it is a point that was refused with error 48.) -/
theorem c53_kept {n1 n2 : Nat} (ws s : Str) {c c' : Char} (hc : c ∈ ws) (hc' : c' ∈ ws) (rest rest' : Str)
    (hs : tokenizeList ws s ≠ []) {b1 b2 : Bool} {e1 e2 : Ers F}
    (h1 : parseF15 n1 Ers.new ⟨tokenizeList ws (s ++ c :: rest), 0⟩ = .ok (b1, e1))
    (h2 : parseF15 n2 Ers.new ⟨tokenizeList ws (s ++ c' :: rest'), 0⟩ = .ok (b2, e2))
    {r : Record F} (hr : r ∈ e1.elements.dropLast)
    (hend : ∀ t ∈ (tokenizeList ws s).drop ((tokenizeList ws s).length - 3), r.stop ≤ t.start)
    (h48 : ∀ t, ElementOf t r → ¬ Refused e1 t) : ∃ r' ∈ e2.elements, SameElement r r' := by
  obtain ⟨x, y, hx, hy, cp⟩ := c53_text ws s hc hc' rest rest' hs h1 h2
  obtain ⟨past, near1, near2, late1, late2, a1, a2, g1, g2, g3, g4, _⟩ := cp.elements
  rw [g1, List.dropLast_concat, List.mem_append, List.mem_append] at hr
  have selfs : SameElement r r := ⟨rfl, rfl, rfl, rfl, rfl, rfl, rfl, rfl⟩
  rcases hr with (hr | hr) | hr
  · exact ⟨r, by rw [g2]; simp [hr], selfs⟩
  · cases g3 with
    | one h =>
      rw [List.mem_singleton] at hr; subst hr
      exact ⟨_, by rw [g2]; simp, h⟩
    | @two _ s' _ r' k h =>
      simp only [List.mem_cons, List.not_mem_nil, or_false] at hr
      rcases hr with rfl | rfl
      · refine ⟨s', by rw [g2]; simp, ?_⟩
        unfold SameButCourse at k
        rw [k]; exact ⟨rfl, rfl, rfl, rfl, rfl, rfl, rfl, rfl⟩
      · exact ⟨_, by rw [g2]; simp, h⟩
  · obtain ⟨t, ht, el⟩ := g4 r hr
    rcases ht with ht | ht
    · exfalso
      -- the token is one of the text
      have as : ∀ u : Token, (assignSyntax u).start = u.start ∧ (assignSyntax u).stop = u.stop := by
        intro u; unfold assignSyntax; dsimp only; split <;> exact ⟨rfl, rfl⟩
      obtain ⟨u, hu, hpos⟩ : ∃ u, (u ∈ (tokenizeList ws s).drop ((tokenizeList ws s).length - 3) ∨ u ∈ x) ∧ u.stop = t.stop := by
        rcases ht with ht | ht
        · unfold typedTokens at ht
          rw [List.length_map, ← List.map_drop] at ht
          obtain ⟨u, hu, rfl⟩ := List.mem_map.1 ht
          exact ⟨u, .inl hu, (as u).2.symm⟩
        · unfold typedTokens at ht
          obtain ⟨u, hu, rfl⟩ := List.mem_map.1 ht
          exact ⟨u, .inr hu, (as u).2.symm⟩
      have hlt : ∀ v ∈ tokenizeList ws (s ++ c :: rest), v.start < v.stop := fun v hv => (c01_locations ws _ v hv).1
      have hstop : r.stop = u.stop := by rw [hpos]; exact el.2.1
      rcases hu with hu | hu
      · have h3 := hend u hu
        have h4 := hlt u (by rw [hx]; exact List.mem_append_left _ (List.mem_of_mem_drop hu))
        omega
      · have hl : (tokenizeList ws s).drop ((tokenizeList ws s).length - 3) ≠ [] := by
          intro h
          rw [List.drop_eq_nil_iff] at h
          have : (tokenizeList ws s).length ≠ 0 := by simpa using hs
          omega
        obtain ⟨v, hv⟩ := List.exists_mem_of_ne_nil _ hl
        have hv' := List.mem_of_mem_drop hv
        have h3 := hend v hv
        have dis := c02_disjoint ws (s ++ c :: rest)
        rw [hx, List.pairwise_append] at dis
        have h5 := dis.2.2 v hv' u hu
        have h6 := hlt v (by rw [hx]; exact List.mem_append_left _ hv')
        have h7 := hlt u (by rw [hx]; exact List.mem_append_right _ hu)
        omega
    · exact absurd ht (h48 t el)

/-! ## Examples -/

/-- Two continuations of `N0450F350 ABC UL9 DEF DCT GHI`: both are parsed, the elements of `ABC UL9 DEF` (that end before the last three
words begin) are in both, although the first goes on along an airway and the second is refused. -/
example :
    tokenizeList f15Whitespace (py! "N0450F350 ABC UL9 DEF DCT GHI") ≠ [] ∧ ' ' ∈ f15Whitespace ∧ '\n' ∈ f15Whitespace ∧
    check (py! "N0450F350 ABC UL9 DEF DCT GHI UL8 JKL") (fun b e => b &&
      ((e.elements.dropLast.filter (·.stop ≤ 18)).map (·.name) = [(py! "ADEP"), (py! "ABC"), (py! "UL9")]) &&
      e.errors.isEmpty) = true ∧
    check (py! "N0450F350 ABC UL9 DEF DCT GHI\nUL8 DCT DCT") (fun b e => !b &&
      ((e.elements.dropLast.filter (·.stop ≤ 18)).map (·.name) = [(py! "ADEP"), (py! "ABC"), (py! "UL9")]) &&
      !e.errors.isEmpty) = true := by
  refine ⟨by decide +kernel, by decide, by decide, by decide +kernel, by decide +kernel⟩

/-- The newest elements can still change: the distance from the last point to the next depends on what follows. -/
example :
    check (py! "N0450F350 5000N00100W DCT") (fun _ e => (e.elements.map (·.distance)) = [0, 0, 0, 0]) = true ∧
    check (py! "N0450F350 5000N00100W DCT 5100N00100W") (fun _ e => (e.elements.map (·.distance)) = [0, 111120, 0, 0, 0]) = true := by
  constructor <;> decide +kernel

/-- Why points refused with error 48 are excepted: the element of the point, at 18, is written after that of `UL8`, at 30. -/
example :
    check (py! "N0450F350 ABC UL9 5030N00130W UL8 N0450F350F370") (fun _ e => (e.elements.map fun r => (r.name, r.start)) =
      [((py! "ADEP"), 0), ((py! "ABC"), 10), ((py! "UL9"), 14), ((py! "UL8"), 30), ((py! "5030N00130W"), 18), ((py! "ADES"), 0)]) = true := by
  decide +kernel

/-- Why error 28 is excepted: it is noted for `DEF`, at 16, after the error for the token at 32. -/
example :
    check (py! "N0450F350 ABC C/DEF UL9 GHI UL8 N0450F350F370") (fun _ e => (e.errors.map fun r => (r.name, r.start)) =
      [((py! "UL9"), 20), ((py! "N0450F350F370"), 32), ((py! "DEF"), 16)]) = true := by
  decide +kernel

end F15
