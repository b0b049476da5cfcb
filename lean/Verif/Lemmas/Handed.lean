import Verif.Lemmas.Threads
import Verif.Lemmas.Reach
import Verif.Lemmas.Crash3
import Verif.Props.Reads
/-!
# Token lists that have been handed out
-/

namespace F15
open Spec

set_option linter.unusedSectionVars false
variable {F : Type} [PyFloat F]

/-- What a thread has been given, and what it is still working on. -/
structure Handed (j : Nat) (h : Heap F) (t : Thread F) : Prop where
  seenLt : ∀ r, Obs.ref r ∈ t.seen → r.2 < t.made
  ptrLt : ∀ r o, r.1 = j → h.tokenizers r = some o → o.tokens.2 < t.made
  busy : ∀ f o, t.frame = some (.tokenize f) → h.tokenizers f.obj = some o → Obs.ref o.tokens ∉ t.seen
  task : ∀ e x k, t.frame = some (.parse e x k) → ∃ n s0 t0 s t, s0.recs ≠ [] ∧ h.ers e = some s ∧ h.tokens x = some t ∧
    Tasks.Reach (Tasks.parse n t0.toks) ⟨s0, t0⟩ k ⟨s, t⟩
  ers : ∀ r s, r.1 = j → h.ers r = some s → s.recs ≠ []

/-- The `Tokens` object is still there with the same words. -/
def SameWords (h h1 : Heap F) (x : Ref) : Prop :=
  ∀ tk, h.tokens x = some tk → ∃ tk1, h1.tokens x = some tk1 ∧ words tk1.toks = words tk.toks

theorem SameWords.refl (h : Heap F) (x : Ref) : SameWords h h x := fun tk htk => ⟨tk, htk, rfl⟩

theorem SameWords.of_eq {h h1 : Heap F} {x : Ref} (e : h.tokens x = h1.tokens x) : SameWords h h1 x := fun tk htk => ⟨tk, e ▸ htk, rfl⟩

theorem SameWords.trans {h h1 h2 : Heap F} {x : Ref} (a : SameWords h h1 x) (b : SameWords h1 h2 x) : SameWords h h2 x := by
  intro tk htk
  obtain ⟨tk1, h1, e1⟩ := a tk htk
  obtain ⟨tk2, h2, e2⟩ := b tk1 h1
  exact ⟨tk2, h2, e2.trans e1⟩

theorem save_other {h : Heap F} {z : Ref} {o : TokenizeObj} (hz : h.tokenizers z = some o) {x : Ref} (hx : x ≠ o.tokens) (word : Str) (idx : Nat) :
    (saveInto h z word idx).tokens x = h.tokens x := by
  unfold saveInto
  rw [hz]; dsimp only
  cases h.tokens o.tokens with
  | none => rfl
  | some t => exact put_ne _ hx _

theorem save_none {h : Heap F} {z : Ref} (hz : h.tokenizers z = none) (word : Str) (idx : Nat) : saveInto h z word idx = h := by
  unfold saveInto; rw [hz]

/-- The loop only writes into the list under construction. -/
theorem loop_other {h : Heap F} {f : Frame} {x : Ref} (hx : ∀ o, h.tokenizers f.obj = some o → x ≠ o.tokens) :
    (loopStep h f).1.tokens x = h.tokens x ∧ (loopStep h f).1.tokenizers = h.tokenizers ∧ (loopStep h f).1.ers = h.ers ∧
    ∀ f', (loopStep h f).2 = some f' → f'.obj = f.obj := by
  have hs : ∀ (g : Heap F), g.tokenizers = h.tokenizers → ∀ word idx, (saveInto g f.obj word idx).tokens x = g.tokens x := by
    intro g hg word idx
    cases ho : g.tokenizers f.obj with
    | none => rw [save_none ho]
    | some o => exact save_other ho (hx o (by rw [← hg]; exact ho)) word idx
  unfold loopStep
  cases f.rest with
  | nil => exact ⟨hs h rfl _ _, save_tz _ _ _ _, save_er _ _ _ _, by intro f' h; cases h⟩
  | cons item rest =>
    dsimp only
    split
    · refine ⟨?_, ?_, ?_, by intro f' h; cases h; rfl⟩
      · dsimp only
        repeat' split
        · rw [hs _ (save_tz _ _ _ _), hs h rfl]
        · rw [hs h rfl]
        · rw [hs h rfl]
        · rfl
      · dsimp only
        repeat' split
        · rw [save_tz, save_tz]
        · rw [save_tz]
        · rw [save_tz]
        · rfl
      · dsimp only
        repeat' split
        · rw [save_er, save_er]
        · rw [save_er]
        · rw [save_er]
        · rfl
    · exact ⟨rfl, rfl, rfl, by intro f' h; cases h; rfl⟩

/-- `parse_f15` keeps the words, and the ADEP, however it ends. -/
theorem crash_words (n : Nat) (k : Option Crash.Strike) {s : Ers F} (hs : s.recs ≠ []) (t : Tokens) :
    words (Crash.parseF15 n k s t).2.2.toks = words t.toks ∧ (Crash.parseF15 n k s t).2.1.recs ≠ [] := by
  have g := (Crash.limG_parse n 0 t.toks ⟨s, t⟩ k).1
  refine ⟨g.words, ?_⟩
  obtain ⟨new, old, h1, h2⟩ := g.recs
  have hl := Crash.agedF_length h2
  show (Crash.parse n t.toks ⟨⟨s, t⟩, k⟩).2.st.ers.recs ≠ []
  rw [h1]
  intro h
  rw [(List.append_eq_nil_iff.mp h).2] at hl
  exact hs (List.length_eq_zero_iff.mp hl)

theorem cursor_words (t : Tokens) (op : CursorOp) : (op.run t).2.toks = t.toks := by
  cases op <;> rfl

/-- A call. -/
theorem call_handed {c : Nat} {j : Nat} {h : Heap F} {t : Thread F} (ho : Owns j h t) (hn : Handed j h t) (hf : t.frame = none)
    {d : Cmd} (hd : ∀ r ∈ d.refs, Obs.ref r ∈ t.seen) :
    Handed j (callStep c j t.made h d).1
      ⟨t.seen ++ (callStep c j t.made h d).2.1.toList, (callStep c j t.made h d).2.2.1, (callStep c j t.made h d).2.2.2⟩ ∧
    ∀ x, Obs.ref x ∈ t.seen → SameWords h (callStep c j t.made h d).1 x := by
  have lt : ∀ (o : Option (Obs F)) (m : Nat), t.made ≤ m → (∀ r, o = some (.ref r) → r.2 < m) →
      ∀ r, Obs.ref r ∈ t.seen ++ o.toList → r.2 < m := by
    intro o m hm ho r hr
    rcases List.mem_append.mp hr with hr | hr
    · exact Nat.lt_of_lt_of_le (hn.seenLt r hr) hm
    · exact ho r (by simpa using hr)
  have pl : ∀ (z : Ref) (ob : TokenizeObj) (m : Nat), t.made ≤ m → ob.tokens.2 < m →
      ∀ r o, r.1 = j → put h.tokenizers z ob r = some o → o.tokens.2 < m := by
    intro z ob m hm hob r o hr hro
    unfold put at hro
    split at hro
    · cases hro; exact hob
    · exact Nat.lt_of_lt_of_le (hn.ptrLt r o hr hro) hm
  have own : ∀ {r : Ref}, r ∈ d.refs → r.1 = j := fun hr => ho.seen _ (hd _ hr)
  -- a call that changes nothing and does not give a reference
  have same : ∀ (ob : Obs F), (∀ r, ob ≠ .ref r) → Handed j h ⟨t.seen ++ (some ob).toList, none, t.made⟩ ∧ ∀ x, Obs.ref x ∈ t.seen → SameWords h h x := by
    intro ob hob
    exact ⟨⟨lt _ _ (Nat.le_refl _) (by intro r hr; cases hr; exact absurd rfl (hob r)), hn.ptrLt, (by intro f o hf; cases hf), (by intro e x k hf; cases hf), hn.ers⟩,
      fun x _ => .refl _ _⟩
  cases d with
  | newTokenize =>
    refine ⟨⟨lt _ _ (Nat.le_add_right t.made 2) (by intro r hr; cases hr; show t.made < t.made + 2; omega), pl _ _ _ (Nat.le_add_right t.made 2) (by show t.made + 1 < t.made + 2; omega),
      (by intro f o hf; cases hf), (by intro e x k hf; cases hf), hn.ers⟩, ?_⟩
    intro x hx
    refine .of_eq (put_ne _ ?_ _).symm
    rintro rfl
    have := hn.seenLt _ hx
    dsimp only at this; omega
  | newErs =>
    refine ⟨⟨lt _ _ (Nat.le_add_right t.made 1) (by intro r hr; cases hr; show t.made < t.made + 1; omega),
      fun r o hr hro => Nat.lt_of_lt_of_le (hn.ptrLt r o hr hro) (Nat.le_add_right t.made 1), (by intro f o hf; cases hf), (by intro e x k hf; cases hf), ?_⟩, fun x _ => .refl _ _⟩
    intro r s hr hs
    change put h.ers _ _ r = some s at hs
    unfold put at hs
    split at hs
    · cases hs; exact new_ne
    · exact hn.ers r s hr hs
  | setString z s | setWhitespace z s =>
    simp only [callStep]
    cases hz : h.tokenizers z with
    | none => exact same _ (by intro r hr; cases hr)
    | some o =>
      have hzj : z.1 = j := own (by simp [Cmd.refs])
      exact ⟨⟨lt _ _ (Nat.le_refl _) (by intro r hr; cases hr), pl _ _ _ (Nat.le_refl _) (hn.ptrLt z o hzj hz), (by intro f o hf; cases hf), (by intro e x k hf; cases hf), hn.ers⟩,
        fun x _ => .refl _ _⟩
  | getString z | getWhitespace z =>
    simp only [callStep]
    cases hz : h.tokenizers z with
    | none => exact same _ (by intro r hr; cases hr)
    | some o => exact same _ (by intro r hr; cases hr)
  | getTokens z =>
    simp only [callStep]
    cases hz : h.tokenizers z with
    | none => exact same _ (by intro r hr; cases hr)
    | some o =>
      have hzj : z.1 = j := own (by simp [Cmd.refs])
      exact ⟨⟨lt _ _ (Nat.le_refl _) (by intro r hr; cases hr; exact hn.ptrLt z o hzj hz), hn.ptrLt, (by intro f o hf; cases hf), (by intro e x k hf; cases hf), hn.ers⟩,
        fun x _ => .refl _ _⟩
  | tokenize z =>
    simp only [callStep]
    cases hz : h.tokenizers z with
    | none => exact same _ (by intro r hr; cases hr)
    | some o =>
      refine ⟨⟨lt _ _ (Nat.le_add_right t.made 1) (by intro r hr; cases hr), pl _ _ _ (Nat.le_add_right t.made 1) (by show t.made < t.made + 1; omega), ?_, (by intro e x k hf; cases hf), hn.ers⟩, ?_⟩
      · intro f o' hf' ho' hmem
        cases hf'
        dsimp only at ho'
        rw [put_at] at ho'
        cases ho'
        have := hn.seenLt (j, t.made) (by simpa using hmem)
        dsimp only at this; omega
      · intro x hx
        refine .of_eq (put_ne _ ?_ _).symm
        rintro rfl
        have := hn.seenLt _ hx
        dsimp only at this; omega
  | cursor x op =>
    simp only [callStep]
    cases hx : h.tokens x with
    | none => exact same _ (by intro r hr; cases hr)
    | some tk =>
      refine ⟨⟨lt _ _ (Nat.le_refl _) ?_, hn.ptrLt, (by intro f o hf; cases hf), (by intro e x k hf; cases hf), hn.ers⟩, ?_⟩
      · intro r hr
        dsimp only at hr
        split at hr <;> cases hr
      · intro y hy tk' htk'
        by_cases hxy : y = x
        · subst hxy
          rw [hx] at htk'; cases htk'
          exact ⟨_, put_at _ _ _, by rw [cursor_words]⟩
        · exact ⟨tk', (put_ne _ hxy _).trans htk', rfl⟩
  | readTokens x =>
    simp only [callStep]
    cases hx : h.tokens x with
    | none => exact same _ (by intro r hr; cases hr)
    | some tk => exact same _ (by intro r hr; cases hr)
  | readErs x =>
    simp only [callStep]
    cases hx : h.ers x with
    | none => exact same _ (by intro r hr; cases hr)
    | some tk => exact same _ (by intro r hr; cases hr)
  | parse e x =>
    simp only [callStep]
    cases hs : h.ers e with
    | none => exact same _ (by intro r hr; cases hr)
    | some s =>
      cases hx : h.tokens x with
      | none => exact same _ (by intro r hr; cases hr)
      | some tk =>
        have hsn : s.recs ≠ [] := hn.ers e s (own (by simp [Cmd.refs])) hs
        refine ⟨⟨lt _ _ (Nat.le_refl _) (by intro r hr; cases hr), hn.ptrLt, (by intro f o hf; cases hf), ?_, hn.ers⟩, fun x _ => .refl _ _⟩
        intro e' x' k' hf
        cases hf
        exact ⟨c, s, tk, s, tk, hsn, hs, hx, .refl⟩

/-- The objects of a running parse get a state that a parse can leave. -/
theorem put_handed {j : Nat} {h : Heap F} {t : Thread F} (hn : Handed j h t) {e x : Ref}
    {s : Ers F} {tk : Tokens} (hx : h.tokens x = some tk) {s' : Ers F} {tk' : Tokens} (hw : words tk'.toks = words tk.toks) (hne : s'.recs ≠ []) :
    (∀ r s2, r.1 = j → put h.ers e s' r = some s2 → s2.recs ≠ []) ∧
    ∀ y, Obs.ref y ∈ t.seen → SameWords h ({ h with ers := put h.ers e s', tokens := put h.tokens x tk' } : Heap F) y := by
  constructor
  · intro r s2 hr hs2
    unfold put at hs2
    split at hs2
    · cases hs2; exact hne
    · exact hn.ers r s2 hr hs2
  · intro y hy tk2 htk2
    by_cases hxy : y = x
    · subst hxy
      rw [hx] at htk2; cases htk2
      exact ⟨_, put_at _ _ _, hw⟩
    · exact ⟨tk2, (put_ne _ hxy _).trans htk2, rfl⟩

theorem reach_words {n : Nat} {s0 : Ers F} {t0 : Tokens} {k : Tasks.Task (St Tokens F) Bool} {s : St Tokens F} (hs : s0.recs ≠ [])
    (h : Tasks.Reach (Tasks.parse n t0.toks) ⟨s0, t0⟩ k s) : words s.toks.toks = words t0.toks ∧ s.ers.recs ≠ [] := by
  obtain ⟨z, hz⟩ := h.state
  have := crash_words n z hs t0
  rw [hz] at this
  exact this

theorem thread_handed {c : Nat} {j : Nat} {h : Heap F} {t : Thread F} (ho : Owns j h t) (hn : Handed j h t)
    {p : Program F} (hh : Honest p) :
    Handed j (threadStep c j p h t).1 (threadStep c j p h t).2 ∧ ∀ x, Obs.ref x ∈ t.seen → SameWords h (threadStep c j p h t).1 x := by
  unfold threadStep
  cases hf : t.frame with
  | some q =>
   cases q with
   | parse e x k =>
    dsimp only
    obtain ⟨n, s0, t0, s, tk, h0, hs, hx, hr⟩ := hn.task e x k hf
    have seen' : ∀ (o : Option (Obs F)), (∀ r, o ≠ some (.ref r)) → ∀ r, Obs.ref r ∈ t.seen ++ o.toList → r.2 < t.made := by
      intro o ho r hr
      rcases List.mem_append.mp hr with hr | hr
      · exact hn.seenLt r hr
      · exact absurd (by simpa using hr) (ho r)
    cases k with
    | done r =>
      cases r with
      | ok b =>
        exact ⟨⟨seen' (some (.flag b)) (by intro r hr; cases hr), hn.ptrLt, (by intro f o hf; cases hf), (by intro e x k hf; cases hf), hn.ers⟩,
          fun x _ => .refl _ _⟩
      | error y =>
        exact ⟨⟨seen' (some (.raised y)) (by intro r hr; cases hr), hn.ptrLt, (by intro f o hf; cases hf), (by intro e x k hf; cases hf), hn.ers⟩,
          fun x _ => .refl _ _⟩
    | act next write =>
      simp only [parseStep, hs, hx]
      have hr' := hr.step
      obtain ⟨w1, w2⟩ := reach_words h0 hr'
      have w3 := (reach_words h0 hr).1
      obtain ⟨p1, p2⟩ := put_handed (s := s) hn hx (e := e) (w1.trans w3.symm) w2
      refine ⟨⟨seen' none (by intro r hr; cases hr), hn.ptrLt, (by intro f o hf; cases hf), ?_, p1⟩, p2⟩
      intro e' x' k' hk
      cases hk
      exact ⟨n, s0, t0, _, _, h0, put_at _ _ _, put_at _ _ _, hr'⟩
   | tokenize f =>
    have key : ∀ x, Obs.ref x ∈ t.seen → ∀ o, h.tokenizers f.obj = some o → x ≠ o.tokens := by
      rintro x hx o ho rfl
      exact hn.busy f o hf ho hx
    dsimp only
    refine ⟨?_, fun x hx => .of_eq (loop_other (key x hx)).1.symm⟩
    have h0 := loop_other (h := h) (f := f) (x := (j, t.made)) (by
      rintro o ho' he
      have := hn.ptrLt f.obj o (ho.frame _ hf f.obj (by simp [Running.refs])) ho'
      rw [← he] at this
      dsimp only at this; omega)
    obtain ⟨_, e1, e2, e3⟩ := h0
    cases h2 : (loopStep h f).2 with
    | some f' =>
      refine ⟨hn.seenLt, by rw [e1]; exact hn.ptrLt, ?_, (by intro e x k hf; cases hf), by rw [e2]; exact hn.ers⟩
      intro g o hg hgo
      cases hg
      rw [e1, e3 f' h2] at hgo
      exact hn.busy f o hf hgo
    | none =>
      refine ⟨?_, by rw [e1]; exact hn.ptrLt, (by intro f o hf; cases hf), (by intro e x k hf; cases hf), by rw [e2]; exact hn.ers⟩
      intro r hr
      rcases List.mem_append.mp hr with hr | hr
      · exact hn.seenLt r hr
      · simp at hr
  | none =>
    dsimp only
    cases hp : p t.seen with
    | none => exact ⟨hn, fun x _ => .refl _ _⟩
    | some d => exact call_handed ho hn hf (fun r hr => hh _ _ hp r hr)

theorem struck_handed {j : Nat} {h : Heap F} {t : Thread F} (ho : Owns j h t) (hn : Handed j h t) (y : PyErr) (v : Nat → Bool) :
    Handed j (threadStruck h t y v).1 (threadStruck h t y v).2 ∧ ∀ x, Obs.ref x ∈ t.seen → SameWords h (threadStruck h t y v).1 x := by
  unfold threadStruck
  have seen' : ∀ r, Obs.ref r ∈ t.seen ++ [.raised y] → r.2 < t.made := by
    intro r hr
    rcases List.mem_append.mp hr with hr | hr
    · exact hn.seenLt r hr
    · simp at hr
  cases hf : t.frame with
  | none => exact ⟨hn, fun x _ => .refl _ _⟩
  | some q =>
    cases q with
    | parse e x k =>
      dsimp only
      obtain ⟨n, s0, t0, s, tk, h0, hs, hx, hr⟩ := hn.task e x k hf
      cases k with
      | done r =>
        exact ⟨⟨seen', hn.ptrLt, (by intro f o hf; cases hf), (by intro e x k hf; cases hf), hn.ers⟩, fun x _ => .refl _ _⟩
      | act next write =>
        simp only [parseStruck, hs, hx]
        obtain ⟨z, hz⟩ := hr.struck y v
        have w := crash_words n (some ⟨z, y, v⟩) h0 t0
        rw [hz] at w
        have w3 := (reach_words h0 hr).1
        obtain ⟨p1, p2⟩ := put_handed (s := s) hn hx (e := e) (w.1.trans w3.symm) w.2
        exact ⟨⟨seen', hn.ptrLt, (by intro f o hf; cases hf), (by intro e x k hf; cases hf), p1⟩, p2⟩
    | tokenize f =>
      dsimp only
      cases v 0
      · exact ⟨⟨seen', hn.ptrLt, (by intro f o hf; cases hf), (by intro e x k hf; cases hf), hn.ers⟩, fun x _ => .refl _ _⟩
      · have key : ∀ x, Obs.ref x ∈ t.seen → ∀ o, h.tokenizers f.obj = some o → x ≠ o.tokens := by
          rintro x hx o ho rfl
          exact hn.busy f o hf ho hx
        have h0 := loop_other (h := h) (f := f) (x := (j, t.made)) (by
          rintro o ho' he
          have := hn.ptrLt f.obj o (ho.frame _ hf f.obj (by simp [Running.refs])) ho'
          rw [← he] at this
          dsimp only at this; omega)
        obtain ⟨_, e1, e2, e3⟩ := h0
        rw [if_pos rfl]
        exact ⟨⟨seen', by rw [e1]; exact hn.ptrLt, (by intro f o hf; cases hf), (by intro e x k hf; cases hf), by rw [e2]; exact hn.ers⟩,
          fun x hx => .of_eq (loop_other (key x hx)).1.symm⟩

theorem event_handed {c : Nat} {v : Event} {j : Nat} (hv : v.thread = j) {h : Heap F} {t : Thread F} (ho : Owns j h t) (hn : Handed j h t)
    {p : Program F} (hh : Honest p) :
    Handed j (v.act c p h t).1 (v.act c p h t).2 ∧ (∀ x, Obs.ref x ∈ t.seen → SameWords h (v.act c p h t).1 x) ∧
    ∀ o ∈ t.seen, o ∈ (v.act c p h t).2.seen := by
  cases v with
  | step i =>
    cases hv
    have g := thread_handed (c := c) ho hn hh
    refine ⟨g.1, g.2, fun o ho => ?_⟩
    show o ∈ (threadStep c i p h t).2.seen
    unfold threadStep
    split
    · dsimp only
      split
      · exact ho
      · exact List.mem_append_left _ ho
    · exact List.mem_append_left _ ho
    · split
      · exact ho
      · exact List.mem_append_left _ ho
  | strike i y w =>
    cases hv
    have g := struck_handed ho hn y w
    refine ⟨g.1, g.2, fun o ho => ?_⟩
    show o ∈ (threadStruck h t y w).2.seen
    unfold threadStruck
    split
    · exact List.mem_append_left _ ho
    · exact List.mem_append_left _ ho
    · exact ho

/-- Along a run. -/
theorem run_handed {c : Nat} {progs : Nat → Program F} (hh : ∀ i, Honest (progs i)) (schedule : List Event) (w : World F)
    (hw : ∀ i, Owns i w.heap (w.threads i)) (hn : ∀ i, Handed i w.heap (w.threads i)) :
    (∀ i, Handed i (schedule.foldl (World.step c progs) w).heap ((schedule.foldl (World.step c progs) w).threads i)) ∧
    ∀ i x, Obs.ref x ∈ (w.threads i).seen → SameWords w.heap (schedule.foldl (World.step c progs) w).heap x := by
  induction schedule generalizing w with
  | nil => exact ⟨hn, fun i x _ => .refl _ _⟩
  | cons v l ih =>
    have hw' := run_owns c hh [v] w hw
    obtain ⟨_, _, k3, k4⟩ := event_own (Agree.refl v.thread w.heap) (hw v.thread) c (hh v.thread) rfl
    obtain ⟨g1, g2, g3⟩ := event_handed (c := c) rfl (hw v.thread) (hn v.thread) (hh v.thread)
    have hn' : ∀ i, Handed i (w.step c progs v).heap ((w.step c progs v).threads i) := by
      intro i
      by_cases hij : i = v.thread
      · subst hij
        show Handed v.thread _ (if v.thread = v.thread then _ else _)
        rw [if_pos rfl]; exact g1
      · show Handed i _ (if i = v.thread then _ else _)
        rw [if_neg hij]
        refine ⟨(hn i).seenLt, ?_, ?_, ?_, ?_⟩
        · intro r o hr hro
          exact (hn i).ptrLt r o hr (((k3 i hij).atTz hr).trans hro)
        · intro f o hf hfo
          exact (hn i).busy f o hf (((k3 i hij).atTz ((hw i).frame _ hf f.obj (by simp [Running.refs]))).trans hfo)
        · intro e x k hf
          obtain ⟨n, s0, t0, s, t, h1, h2, h3, h4⟩ := (hn i).task e x k hf
          exact ⟨n, s0, t0, s, t, h1, ((k3 i hij).atEr ((hw i).frame _ hf e (by simp [Running.refs]))).symm.trans h2,
            ((k3 i hij).atTk ((hw i).frame _ hf x (by simp [Running.refs]))).symm.trans h3, h4⟩
        · intro r s hr hs
          exact (hn i).ers r s hr (((k3 i hij).atEr hr).trans hs)
    obtain ⟨m1, m2⟩ := ih (w.step c progs v) hw' hn'
    refine ⟨m1, ?_⟩
    intro i x hx
    have hxi := (hw i).seen x hx
    have hs : SameWords w.heap (w.step c progs v).heap x := by
      by_cases hij : i = v.thread
      · subst hij; exact g2 x hx
      · exact .of_eq ((k3 i hij).atTk hxi)
    refine hs.trans (m2 i x ?_)
    show _ ∈ (if i = v.thread then _ else _ : Thread F).seen
    split
    · rename_i hij
      subst hij
      exact g3 _ hx
    · exact hx

theorem start_handed (i : Nat) : Handed i (World.start (F := F)).heap ((World.start (F := F)).threads i) :=
  ⟨(by intro r hr; cases hr), (by intro r o _ ho; cases ho), (by intro f o hf; cases hf), (by intro e x k hf; cases hf), (by intro r s _ hs; cases hs)⟩

end F15
