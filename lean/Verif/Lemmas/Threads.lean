import Verif.Spec.Threads
/-!
# Steps of threads that share nothing
-/

namespace F15
open Spec

set_option linter.unusedSectionVars false
variable {F : Type} [PyFloat F]

/-- The objects made by thread `j` are the same in both heaps. -/
structure Agree (j : Nat) (h h' : Heap F) : Prop where
  tz : ∀ n, h.tokenizers (j, n) = h'.tokenizers (j, n)
  tk : ∀ n, h.tokens (j, n) = h'.tokens (j, n)
  er : ∀ n, h.ers (j, n) = h'.ers (j, n)

theorem Agree.refl (j : Nat) (h : Heap F) : Agree j h h := ⟨fun _ => rfl, fun _ => rfl, fun _ => rfl⟩

theorem Agree.symm {j : Nat} {h h' : Heap F} (a : Agree j h h') : Agree j h' h :=
  ⟨fun n => (a.tz n).symm, fun n => (a.tk n).symm, fun n => (a.er n).symm⟩

theorem Agree.trans {j : Nat} {h h' h'' : Heap F} (a : Agree j h h') (b : Agree j h' h'') : Agree j h h'' :=
  ⟨fun n => (a.tz n).trans (b.tz n), fun n => (a.tk n).trans (b.tk n), fun n => (a.er n).trans (b.er n)⟩

theorem Agree.atTz {j : Nat} {h h' : Heap F} (a : Agree j h h') {r : Ref} (hr : r.1 = j) : h.tokenizers r = h'.tokenizers r := by
  obtain ⟨k, n⟩ := r; cases hr; exact a.tz n
theorem Agree.atTk {j : Nat} {h h' : Heap F} (a : Agree j h h') {r : Ref} (hr : r.1 = j) : h.tokens r = h'.tokens r := by
  obtain ⟨k, n⟩ := r; cases hr; exact a.tk n
theorem Agree.atEr {j : Nat} {h h' : Heap F} (a : Agree j h h') {r : Ref} (hr : r.1 = j) : h.ers r = h'.ers r := by
  obtain ⟨k, n⟩ := r; cases hr; exact a.er n

/-- The objects a running call uses. -/
def Running.refs : Running F → List Ref
  | .tokenize f => [f.obj]
  | .parse e x _ => [e, x]

/-- The thread knows, and its tokenizers refer to, objects of its own only. -/
structure Owns (j : Nat) (h : Heap F) (t : Thread F) : Prop where
  seen : ∀ r, Obs.ref r ∈ t.seen → r.1 = j
  frame : ∀ f, t.frame = some f → ∀ r ∈ f.refs, r.1 = j
  ptr : ∀ r o, r.1 = j → h.tokenizers r = some o → o.tokens.1 = j

/-- Only objects of thread `j` differ. -/
def Only2 (j : Nat) (h h1 : Heap F) : Prop := ∀ k, k ≠ j → Agree k h h1

theorem put_same {α : Type} {m m' : Ref → Option α} {j : Nat} (h : ∀ n, m (j, n) = m' (j, n)) (r : Ref) (a : α) :
    ∀ n, put m r a (j, n) = put m' r a (j, n) := by
  intro n; unfold put; split
  · rfl
  · exact h n

theorem put_other {α : Type} (m : Ref → Option α) {k : Nat} {r : Ref} (h : k ≠ r.1) (a : α) : ∀ n, m (k, n) = put m r a (k, n) := by
  intro n; unfold put
  rw [if_neg]
  rintro rfl; exact h rfl

theorem put_at {α : Type} (m : Ref → Option α) (r : Ref) (a : α) : put m r a r = some a := if_pos rfl

theorem put_ne {α : Type} (m : Ref → Option α) {r r' : Ref} (h : r' ≠ r) (a : α) : put m r a r' = m r' := if_neg h

theorem save_tz (h : Heap F) (z : Ref) (word : Str) (idx : Nat) : (saveInto h z word idx).tokenizers = h.tokenizers := by
  unfold saveInto; split
  · rfl
  · split <;> rfl

theorem save_er (h : Heap F) (z : Ref) (word : Str) (idx : Nat) : (saveInto h z word idx).ers = h.ers := by
  unfold saveInto; split
  · rfl
  · split <;> rfl

theorem save_agree {j : Nat} {h h' : Heap F} (a : Agree j h h') (hp : ∀ r o, r.1 = j → h.tokenizers r = some o → o.tokens.1 = j)
    {z : Ref} (hz : z.1 = j) (word : Str) (idx : Nat) :
    Agree j (saveInto h z word idx) (saveInto h' z word idx) := by
  unfold saveInto
  rw [← a.atTz hz]
  cases ho : h.tokenizers z with
  | none => exact a
  | some o =>
    dsimp only
    rw [← a.atTk (hp z o hz ho)]
    cases h.tokens o.tokens with
    | none => exact a
    | some t => exact ⟨a.tz, put_same a.tk _ _, a.er⟩

theorem save_only {j : Nat} {h : Heap F} (hp : ∀ r o, r.1 = j → h.tokenizers r = some o → o.tokens.1 = j)
    {z : Ref} (hz : z.1 = j) (word : Str) (idx : Nat) : Only2 j h (saveInto h z word idx) := by
  intro k hk
  unfold saveInto
  cases ho : h.tokenizers z with
  | none => exact .refl _ _
  | some o =>
    dsimp only
    cases h.tokens o.tokens with
    | none => exact .refl _ _
    | some t => exact ⟨fun _ => rfl, put_other _ (by rw [hp z o hz ho]; exact hk) _, fun _ => rfl⟩

theorem Only2.trans {j : Nat} {h h1 h2 : Heap F} (a : Only2 j h h1) (b : Only2 j h1 h2) : Only2 j h h2 :=
  fun k hk => (a k hk).trans (b k hk)

theorem Only2.refl (j : Nat) (h : Heap F) : Only2 j h h := fun _ _ => .refl _ _

/-- A pass of the loop. -/
theorem loop_own {j : Nat} {h h' : Heap F} (a : Agree j h h') (hp : ∀ r o, r.1 = j → h.tokenizers r = some o → o.tokens.1 = j)
    {f : Frame} (hf : f.obj.1 = j) :
    (loopStep h f).2 = (loopStep h' f).2 ∧ Agree j (loopStep h f).1 (loopStep h' f).1 ∧ Only2 j h (loopStep h f).1 ∧
    (loopStep h f).1.tokenizers = h.tokenizers ∧ (∀ f', (loopStep h f).2 = some f' → f'.obj.1 = j) := by
  unfold loopStep
  cases f.rest with
  | nil => exact ⟨rfl, save_agree a hp hf _ _, save_only hp hf _ _, save_tz _ _ _ _, by intro f' h; cases h⟩
  | cons item rest =>
    dsimp only
    rw [← a.atTz hf]
    split
    · have p1 : Agree j (if f.word.length > 0 then saveInto h f.obj f.word f.idx else h)
          (if f.word.length > 0 then saveInto h' f.obj f.word f.idx else h') := by
        split
        · exact save_agree a hp hf _ _
        · exact a
      have o1 : Only2 j h (if f.word.length > 0 then saveInto h f.obj f.word f.idx else h) := by
        split
        · exact save_only hp hf _ _
        · exact .refl _ _
      have t1 : (if f.word.length > 0 then saveInto h f.obj f.word f.idx else h).tokenizers = h.tokenizers := by
        split
        · exact save_tz _ _ _ _
        · rfl
      generalize (if f.word.length > 0 then saveInto h f.obj f.word f.idx else h) = g at p1 o1 t1 ⊢
      generalize (if f.word.length > 0 then saveInto h' f.obj f.word f.idx else h') = g' at p1 ⊢
      have hp' : ∀ r o, r.1 = j → g.tokenizers r = some o → o.tokens.1 = j := by rw [t1]; exact hp
      refine ⟨rfl, ?_, ?_, ?_, by intro f' h; cases h; exact hf⟩
      · split
        · exact save_agree p1 hp' hf _ _
        · exact p1
      · split
        · exact o1.trans (save_only hp' hf _ _)
        · exact o1
      · split
        · rw [save_tz, t1]
        · exact t1
    · exact ⟨rfl, a, .refl _ _, rfl, by intro f' h; cases h; exact hf⟩

/-- A call that uses objects of its own thread only. -/
theorem call_own {j : Nat} {h h' : Heap F} (a : Agree j h h') (hp : ∀ r o, r.1 = j → h.tokenizers r = some o → o.tokens.1 = j)
    (c : Nat) (made : Nat) {d : Cmd} (hd : ∀ r ∈ d.refs, r.1 = j) :
    (callStep c j made h d).2 = (callStep c j made h' d).2 ∧ Agree j (callStep c j made h d).1 (callStep c j made h' d).1 ∧
    Only2 j h (callStep c j made h d).1 ∧
    (∀ r o, r.1 = j → (callStep c j made h d).1.tokenizers r = some o → o.tokens.1 = j) ∧
    (∀ r, (callStep c j made h d).2.1 = some (.ref r) → r.1 = j) ∧ (∀ f, (callStep c j made h d).2.2.1 = some f → ∀ r ∈ f.refs, r.1 = j) := by
  have other : ∀ {α : Type} (m : Ref → Option α) {k : Nat} (_ : k ≠ j) (r : Ref) (_ : r.1 = j) (b : α), ∀ n, m (k, n) = put m r b (k, n) := by
    intro α m k hk r hr b; exact put_other m (by rw [hr]; exact hk) b
  have hptr : ∀ (z : Ref) (ob : TokenizeObj), ob.tokens.1 = j → ∀ r o, r.1 = j → put h.tokenizers z ob r = some o → o.tokens.1 = j := by
    intro z ob hob r o hr ho
    unfold put at ho
    split at ho
    · cases ho; exact hob
    · exact hp r o hr ho
  cases d with
  | newTokenize =>
    refine ⟨rfl, ⟨put_same a.tz _ _, put_same a.tk _ _, a.er⟩,
      fun k hk => ⟨other _ hk _ rfl _, other _ hk _ rfl _, fun _ => rfl⟩, hptr _ _ rfl, ?_, ?_⟩
    · intro r hr; cases hr; rfl
    · intro f hf; cases hf
  | newErs =>
    refine ⟨rfl, ⟨a.tz, a.tk, put_same a.er _ _⟩, fun k hk => ⟨fun _ => rfl, fun _ => rfl, other _ hk _ rfl _⟩, hp, ?_, ?_⟩
    · intro r hr; cases hr; rfl
    · intro f hf; cases hf
  | setString z s | setWhitespace z s =>
    have hz : z.1 = j := hd z (by simp [Cmd.refs])
    simp only [callStep]
    rw [← a.atTz hz]
    cases ho : h.tokenizers z with
    | none => exact ⟨rfl, a, .refl _ _, hp, (by intro r hr; cases hr), (by intro f hf; cases hf)⟩
    | some o =>
      refine ⟨rfl, ⟨put_same a.tz _ _, a.tk, a.er⟩, fun k hk => ⟨other _ hk _ hz _, fun _ => rfl, fun _ => rfl⟩, hptr _ _ (hp z o hz ho), ?_, ?_⟩
      · intro r hr; cases hr
      · intro f hf; cases hf
  | getString z | getWhitespace z | getTokens z =>
    have hz : z.1 = j := hd z (by simp [Cmd.refs])
    simp only [callStep]
    rw [← a.atTz hz]
    cases ho : h.tokenizers z with
    | none => exact ⟨rfl, a, .refl _ _, hp, (by intro r hr; cases hr), (by intro f hf; cases hf)⟩
    | some o =>
      refine ⟨rfl, a, .refl _ _, hp, ?_, by intro f hf; cases hf⟩
      intro r hr
      first
        | (cases hr; done)
        | (cases hr; exact hp z o hz ho)
  | tokenize z =>
    have hz : z.1 = j := hd z (by simp [Cmd.refs])
    simp only [callStep]
    rw [← a.atTz hz]
    cases ho : h.tokenizers z with
    | none => exact ⟨rfl, a, .refl _ _, hp, (by intro r hr; cases hr), (by intro f hf; cases hf)⟩
    | some o =>
      refine ⟨rfl, ⟨put_same a.tz _ _, put_same a.tk _ _, a.er⟩, fun k hk => ⟨other _ hk _ hz _, other _ hk _ rfl _, fun _ => rfl⟩,
        hptr _ _ rfl, ?_, ?_⟩
      · intro r hr; cases hr
      · intro f hf; cases hf; intro r hr; rw [List.mem_singleton.1 hr]; exact hz
  | cursor x op =>
    have hx : x.1 = j := hd x (by simp [Cmd.refs])
    simp only [callStep]
    rw [← a.atTk hx]
    cases ho : h.tokens x with
    | none => exact ⟨rfl, a, .refl _ _, hp, (by intro r hr; cases hr), (by intro f hf; cases hf)⟩
    | some t =>
      refine ⟨rfl, ⟨a.tz, put_same a.tk _ _, a.er⟩, fun k hk => ⟨fun _ => rfl, other _ hk _ hx _, fun _ => rfl⟩, hp, ?_, ?_⟩
      · intro r hr
        dsimp only at hr
        split at hr <;> cases hr
      · intro f hf; cases hf
  | readTokens x =>
    have hx : x.1 = j := hd x (by simp [Cmd.refs])
    simp only [callStep]
    rw [← a.atTk hx]
    cases ho : h.tokens x with
    | none => exact ⟨rfl, a, .refl _ _, hp, (by intro r hr; cases hr), (by intro f hf; cases hf)⟩
    | some t => exact ⟨rfl, a, .refl _ _, hp, (by intro r hr; cases hr), (by intro f hf; cases hf)⟩
  | readErs e =>
    have hx : e.1 = j := hd e (by simp [Cmd.refs])
    simp only [callStep]
    rw [← a.atEr hx]
    cases ho : h.ers e with
    | none => exact ⟨rfl, a, .refl _ _, hp, (by intro r hr; cases hr), (by intro f hf; cases hf)⟩
    | some t => exact ⟨rfl, a, .refl _ _, hp, (by intro r hr; cases hr), (by intro f hf; cases hf)⟩
  | parse e x =>
    have he : e.1 = j := hd e (by simp [Cmd.refs])
    have hx : x.1 = j := hd x (by simp [Cmd.refs])
    simp only [callStep]
    rw [← a.atEr he, ← a.atTk hx]
    cases h.ers e with
    | none => exact ⟨rfl, a, .refl _ _, hp, (by intro r hr; cases hr), (by intro f hf; cases hf)⟩
    | some s =>
      cases h.tokens x with
      | none => exact ⟨rfl, a, .refl _ _, hp, (by intro r hr; cases hr), (by intro f hf; cases hf)⟩
      | some t =>
        refine ⟨rfl, a, .refl _ _, hp, (by intro r hr; cases hr), ?_⟩
        intro f hf
        cases hf
        intro r hr
        rcases List.mem_cons.1 hr with rfl | hr
        · exact he
        · rw [List.mem_singleton.1 hr]; exact hx

/-- A step of `parse_f15` on objects of its own thread. -/
theorem parse_own {j : Nat} {h h' : Heap F} (a : Agree j h h') {e x : Ref} (he : e.1 = j) (hx : x.1 = j) (k : Tasks.Task (St Tokens F) Bool) :
    (parseStep h e x k).2 = (parseStep h' e x k).2 ∧ Agree j (parseStep h e x k).1 (parseStep h' e x k).1 ∧
    Only2 j h (parseStep h e x k).1 ∧ (parseStep h e x k).1.tokenizers = h.tokenizers ∧
    (∀ r, (parseStep h e x k).2.2 ≠ some (.ref r)) := by
  have other : ∀ {α : Type} (m : Ref → Option α) {k : Nat} (_ : k ≠ j) (r : Ref) (_ : r.1 = j) (b : α), ∀ n, m (k, n) = put m r b (k, n) := by
    intro α m k hk r hr b; exact put_other m (by rw [hr]; exact hk) b
  cases k with
  | done r =>
    cases r with
    | ok b => exact ⟨rfl, a, .refl _ _, rfl, by intro r hr; cases hr⟩
    | error y => exact ⟨rfl, a, .refl _ _, rfl, by intro r hr; cases hr⟩
  | act n w =>
    simp only [parseStep]
    rw [← a.atEr he, ← a.atTk hx]
    cases h.ers e with
    | none => exact ⟨rfl, a, .refl _ _, rfl, by intro r hr; cases hr⟩
    | some s =>
      cases h.tokens x with
      | none => exact ⟨rfl, a, .refl _ _, rfl, by intro r hr; cases hr⟩
      | some t =>
        exact ⟨rfl, ⟨a.tz, put_same a.tk _ _, put_same a.er _ _⟩, fun k hk => ⟨fun _ => rfl, other _ hk _ hx _, other _ hk _ he _⟩, rfl,
          by intro r hr; cases hr⟩

theorem struck_own {j : Nat} {h h' : Heap F} (a : Agree j h h') {e x : Ref} (he : e.1 = j) (hx : x.1 = j) (v : Nat → Bool)
    (k : Tasks.Task (St Tokens F) Bool) :
    Agree j (parseStruck h e x v k) (parseStruck h' e x v k) ∧ Only2 j h (parseStruck h e x v k) ∧
    (parseStruck h e x v k).tokenizers = h.tokenizers := by
  have other : ∀ {α : Type} (m : Ref → Option α) {k : Nat} (_ : k ≠ j) (r : Ref) (_ : r.1 = j) (b : α), ∀ n, m (k, n) = put m r b (k, n) := by
    intro α m k hk r hr b; exact put_other m (by rw [hr]; exact hk) b
  cases k with
  | done r => exact ⟨a, .refl _ _, rfl⟩
  | act n w =>
    simp only [parseStruck]
    rw [← a.atEr he, ← a.atTk hx]
    cases h.ers e with
    | none => exact ⟨a, .refl _ _, rfl⟩
    | some s =>
      cases h.tokens x with
      | none => exact ⟨a, .refl _ _, rfl⟩
      | some t =>
        exact ⟨⟨a.tz, put_same a.tk _ _, put_same a.er _ _⟩, fun k hk => ⟨fun _ => rfl, other _ hk _ hx _, other _ hk _ he _⟩, rfl⟩

/-- A step of a thread that shares nothing depends on and changes its own objects only. -/
theorem thread_own {j : Nat} {h h' : Heap F} (a : Agree j h h') {t : Thread F} (ho : Owns j h t) (c : Nat) {p : Program F}
    (hh : Honest p) :
    (threadStep c j p h t).2 = (threadStep c j p h' t).2 ∧ Agree j (threadStep c j p h t).1 (threadStep c j p h' t).1 ∧
    Only2 j h (threadStep c j p h t).1 ∧ Owns j (threadStep c j p h t).1 (threadStep c j p h t).2 := by
  unfold threadStep
  cases hf : t.frame with
  | some q =>
   cases q with
   | parse e x k =>
    have he : e.1 = j := ho.frame _ hf e (by simp [Running.refs])
    have hx : x.1 = j := ho.frame _ hf x (by simp [Running.refs])
    obtain ⟨k1, k2, k3, k4, k5⟩ := parse_own a he hx k
    dsimp only
    rw [← k1]
    refine ⟨rfl, k2, k3, ?_, ?_, by rw [k4]; exact ho.ptr⟩
    · intro r hr
      rcases List.mem_append.mp hr with hr | hr
      · exact ho.seen r hr
      · exact absurd (by simpa using hr) (k5 r)
    · intro g hg r hr
      obtain ⟨k', _, rfl⟩ := Option.map_eq_some_iff.1 hg
      exact ho.frame _ hf r hr
   | tokenize f =>
    obtain ⟨k1, k2, k3, k4, k5⟩ := loop_own a ho.ptr (ho.frame _ hf f.obj (by simp [Running.refs]))
    dsimp only
    rw [← k1]
    refine ⟨rfl, k2, k3, ?_, ?_, by rw [k4]; exact ho.ptr⟩
    · cases h2 : (loopStep h f).2 with
      | some f' => exact ho.seen
      | none =>
        intro r hr
        rcases List.mem_append.mp hr with hr | hr
        · exact ho.seen r hr
        · simp at hr
    · cases h2 : (loopStep h f).2 with
      | some f' => intro g hg; cases hg; intro r hr; rw [List.mem_singleton.1 hr]; exact k5 _ h2
      | none => intro g hg; cases hg
  | none =>
    dsimp only
    cases hp : p t.seen with
    | none => exact ⟨rfl, a, .refl _ _, ho⟩
    | some d =>
      obtain ⟨k1, k2, k3, k4, k5, k6⟩ := call_own a ho.ptr c t.made (fun r hr => ho.seen r (hh _ _ hp r hr))
      dsimp only
      rw [← k1]
      refine ⟨rfl, k2, k3, ?_, k6, k4⟩
      intro r hr
      rcases List.mem_append.mp hr with hr | hr
      · exact ho.seen r hr
      · exact k5 r (by simpa using hr)

/-- An exception that strikes a thread. -/
theorem thread_struck {j : Nat} {h h' : Heap F} (a : Agree j h h') {t : Thread F} (ho : Owns j h t) (y : PyErr) (v : Nat → Bool) :
    (threadStruck h t y v).2 = (threadStruck h' t y v).2 ∧ Agree j (threadStruck h t y v).1 (threadStruck h' t y v).1 ∧
    Only2 j h (threadStruck h t y v).1 ∧ Owns j (threadStruck h t y v).1 (threadStruck h t y v).2 := by
  unfold threadStruck
  have hseen : ∀ r, Obs.ref r ∈ t.seen ++ [.raised y] → r.1 = j := by
    intro r hr
    rcases List.mem_append.mp hr with hr | hr
    · exact ho.seen r hr
    · simp at hr
  cases hf : t.frame with
  | none => exact ⟨rfl, a, .refl _ _, ho⟩
  | some q =>
    cases q with
    | parse e x k =>
      have he : e.1 = j := ho.frame _ hf e (by simp [Running.refs])
      have hx : x.1 = j := ho.frame _ hf x (by simp [Running.refs])
      obtain ⟨k2, k3, k4⟩ := struck_own a he hx v k
      exact ⟨rfl, k2, k3, hseen, (by intro g hg; cases hg), by rw [k4]; exact ho.ptr⟩
    | tokenize f =>
      obtain ⟨k1, k2, k3, k4, k5⟩ := loop_own a ho.ptr (ho.frame _ hf f.obj (by simp [Running.refs]))
      dsimp only
      cases v 0
      · exact ⟨rfl, a, .refl _ _, hseen, (by intro g hg; cases hg), ho.ptr⟩
      · exact ⟨rfl, k2, k3, hseen, (by intro g hg; cases hg), by rw [if_pos rfl, k4]; exact ho.ptr⟩

/-- An event of a thread that shares nothing depends on and changes its own objects only. -/
theorem event_own {j : Nat} {h h' : Heap F} (a : Agree j h h') {t : Thread F} (ho : Owns j h t) (c : Nat) {p : Program F}
    (hh : Honest p) {v : Event} (hv : v.thread = j) :
    (v.act c p h t).2 = (v.act c p h' t).2 ∧ Agree j (v.act c p h t).1 (v.act c p h' t).1 ∧
    Only2 j h (v.act c p h t).1 ∧ Owns j (v.act c p h t).1 (v.act c p h t).2 := by
  cases v with
  | step i => cases hv; exact thread_own a ho c hh
  | strike i y w => cases hv; exact thread_struck a ho y w

/-- Every thread keeps to itself. -/
theorem run_owns (c : Nat) {progs : Nat → Program F} (hh : ∀ i, Honest (progs i)) (schedule : List Event) (w : World F)
    (hw : ∀ i, Owns i w.heap (w.threads i)) :
    ∀ i, Owns i (schedule.foldl (World.step c progs) w).heap ((schedule.foldl (World.step c progs) w).threads i) := by
  induction schedule generalizing w with
  | nil => exact hw
  | cons v l ih =>
    refine ih (w.step c progs v) fun i => ?_
    obtain ⟨_, _, k3, k4⟩ := event_own (Agree.refl v.thread w.heap) (hw v.thread) c (hh v.thread) rfl
    by_cases hij : i = v.thread
    · subst hij
      show Owns v.thread _ (if v.thread = v.thread then _ else _)
      rw [if_pos rfl]; exact k4
    · show Owns i _ (if i = v.thread then _ else _)
      rw [if_neg hij]
      refine ⟨(hw i).seen, (hw i).frame, ?_⟩
      intro r o hr hro
      exact (hw i).ptr r o hr (((k3 i hij).atTz hr).trans hro)

/-- What thread `i` sees and has does not depend on the others. -/
theorem run_alone (c : Nat) {progs : Nat → Program F} (hh : ∀ i, Honest (progs i)) (i : Nat) (schedule : List Event) (w v : World F)
    (hw : ∀ i, Owns i w.heap (w.threads i)) (hv : ∀ i, Owns i v.heap (v.threads i))
    (ht : w.threads i = v.threads i) (ha : Agree i w.heap v.heap) :
    (schedule.foldl (World.step c progs) w).threads i = ((schedule.filter (·.thread == i)).foldl (World.step c progs) v).threads i ∧
    Agree i (schedule.foldl (World.step c progs) w).heap ((schedule.filter (·.thread == i)).foldl (World.step c progs) v).heap := by
  induction schedule generalizing w v with
  | nil => exact ⟨ht, ha⟩
  | cons ev l ih =>
    have hw' := run_owns c hh [ev] w hw
    by_cases hij : ev.thread = i
    · rw [List.filter_cons_of_pos (by simp [hij])]
      have hv' := run_owns c hh [ev] v hv
      obtain ⟨k1, k2, _, _⟩ := event_own ha (hw i) c (hh i) hij
      refine ih (w.step c progs ev) (v.step c progs ev) hw' hv' ?_ ?_
      · show (if i = ev.thread then _ else _) = (if i = ev.thread then _ else _)
        rw [if_pos hij.symm, if_pos hij.symm, hij, k1, ht]
      · show Agree i (ev.act c (progs ev.thread) w.heap (w.threads ev.thread)).1 (ev.act c (progs ev.thread) v.heap (v.threads ev.thread)).1
        rw [hij, ← ht]; exact k2
    · rw [List.filter_cons_of_neg (by simp [hij])]
      obtain ⟨_, _, k3, _⟩ := event_own (Agree.refl ev.thread w.heap) (hw ev.thread) c (hh ev.thread) rfl
      refine ih (w.step c progs ev) v hw' hv ?_ ?_
      · show (if i = ev.thread then _ else _) = _
        rw [if_neg (fun h => hij h.symm)]; exact ht
      · exact (k3 i (fun h => hij h.symm)).symm.trans ha

theorem start_owns (i : Nat) : Owns i (World.start (F := F)).heap ((World.start (F := F)).threads i) :=
  ⟨(by intro r hr; cases hr), (by intro f hf; cases hf), (by intro r o _ ho; cases ho)⟩

end F15
