import Verif.Lemmas.Handed
import Verif.Props.Crash
import Verif.Props.Time
import Verif.Props.Reads
/-!
# C56: threads, C57: token lists that have been handed out

main.py:11-13 says that the tokenizer is stateless and thread safe. It is not (`c56_false`): it keeps the string, the separators and the tokens in the object. What is
true: threads that do not share objects do not influence each other, under any schedule. The scheduler can switch to another thread, and an exception from
outside (a signal handler, `KeyboardInterrupt`, `MemoryError`) can strike a thread, inside `tokenize` and inside `parse_f15`, at every primitive step.
-/

namespace F15
open Spec

set_option linter.unusedSectionVars false
variable {F : Type} [PyFloat F]

/-- **C56** Under every schedule a thread that shares no objects observes exactly what it observes when it runs alone: with the same steps and the same
exceptions from outside, without those of the other threads. -/
theorem c56_partial (frames : Nat) (progs : Nat → Program F) (hh : ∀ j, Honest (progs j)) (schedule : List Event) (i : Nat)
    (alone : Nat → Program F) (ha : ∀ j, alone j = if j = i then progs i else fun _ => none) :
    ((World.run frames progs schedule).threads i).seen =
      ((World.run frames alone (schedule.filter fun v => v.thread == i)).threads i).seen := by
  have h1 := (run_alone frames hh i schedule World.start World.start start_owns start_owns rfl (.refl _ _)).1
  have h3 : ∀ (l : List Event) (w : World F), (∀ v ∈ l, v.thread = i) →
      l.foldl (World.step frames progs) w = l.foldl (World.step frames alone) w := by
    intro l
    induction l with
    | nil => intro w _; rfl
    | cons v l ih =>
      intro w hl
      rw [List.foldl_cons, List.foldl_cons, ih _ fun v hv => hl v (List.mem_cons_of_mem _ hv)]
      congr 1
      unfold World.step
      rw [hl v List.mem_cons_self, ha i, if_pos rfl]
  unfold World.run
  rw [h1, h3]
  intro v hv
  simpa using (List.mem_filter.1 hv).2

/-- `n` steps of thread `i` on its own. -/
def solo (c : Nat) (i : Nat) (p : Program F) : Nat → Heap F × Thread F → Heap F × Thread F
  | 0, x => x
  | n + 1, x => solo c i p n (threadStep c i p x.1 x.2)

theorem solo_add (c : Nat) (i : Nat) (p : Program F) (m n : Nat) (x : Heap F × Thread F) :
    solo c i p (m + n) x = solo c i p n (solo c i p m x) := by
  induction m generalizing x with
  | zero => rw [Nat.zero_add]; rfl
  | succ m ih =>
    rw [Nat.succ_add]
    exact ih _

theorem run_solo (c : Nat) (progs : Nat → Program F) (i n : Nat) (w : World F) :
    ((List.replicate n (Event.step i)).foldl (World.step c progs) w).threads i = (solo c i (progs i) n (w.heap, w.threads i)).2 := by
  induction n generalizing w with
  | zero => rfl
  | succ n ih =>
    rw [List.replicate_succ, List.foldl_cons, ih]
    show (solo c i (progs i) n ((w.step c progs (.step i)).heap, if i = i then _ else _)).2 = _
    rw [if_pos rfl]; rfl

/-- What the caller of `parse_f15` gets. -/
def outcome : Except PyErr Bool → Obs F
  | .ok b => .flag b
  | .error y => .raised y

/-- The steps of `parse_f15` together are `parse_f15`. -/
theorem solo_parse (k : Tasks.Task (St Tokens F) Bool) (s : St Tokens F) :
    ∀ (c i : Nat) (p : Program F) (e x : Ref) (h : Heap F) (t : Thread F), h.ers e = some s.ers → h.tokens x = some s.toks →
      solo c i p (steps k s + 1) (h, { t with frame := some (.parse e x k) }) =
        ({ h with ers := put h.ers e (Tasks.play k ⟨s, none⟩).2.st.ers, tokens := put h.tokens x (Tasks.play k ⟨s, none⟩).2.st.toks },
          { t with frame := none, seen := t.seen ++ [outcome (Tasks.play k ⟨s, none⟩).1] }) := by
  have put_self : ∀ {α : Type} (m : Ref → Option α) (r : Ref) (a : α), m r = some a → put m r a = m := by
    intro α m r a hm; funext r'; unfold put; split
    · rename_i hr; rw [hr, hm]
    · rfl
  have put_put : ∀ {α : Type} (m : Ref → Option α) (r : Ref) (a b : α), put (put m r a) r b = put m r b := by
    intro α m r a b; funext r; unfold put; split <;> rfl
  induction k generalizing s with
  | done r =>
    intro c i p e x h t he hx
    have e1 := put_self _ _ _ he
    have e2 := put_self _ _ _ hx
    cases r with
    | ok b =>
      show (h, _) = _
      dsimp only [Tasks.play]
      rw [e1, e2]
      rfl
    | error y =>
      show (h, _) = _
      dsimp only [Tasks.play]
      rw [e1, e2]
      rfl
  | act n w ih =>
    have hN := ih s (w s)
    intro c i p e x h t he hx
    have h1 : threadStep c i p h { t with frame := some (.parse e x (.act n w)) } =
        ({ h with ers := put h.ers e (w s).ers, tokens := put h.tokens x (w s).toks }, { t with frame := some (.parse e x (n s)) }) := by
      unfold threadStep parseStep
      dsimp only
      rw [he, hx]
      dsimp only [Option.map, Option.toList]
      rw [List.append_nil]
    show solo c i p (steps (n s) (w s) + 1) (threadStep c i p h _) = _
    rw [h1, hN c i p e x _ t (put_at _ _ _) (put_at _ _ _)]
    dsimp only [Tasks.play, Option.map]
    rw [put_put, put_put]

/-- The passes of the loop together are the loop. -/
theorem solo_loop (c : Nat) (i : Nat) (p : Program F) (z x : Ref) (s w : Str) (rest : Str) (idx : Nat) (word : Str)
    (h : Heap F) (hz : h.tokenizers z = some ⟨s, w, x⟩) (acc : Tokens) (hx : h.tokens x = some acc) (t : Thread F) :
    solo c i p (rest.length + 1) (h, { t with frame := some (.tokenize ⟨z, rest, idx, word⟩) }) =
      ({ h with tokens := put h.tokens x (Tokenize.loop w rest idx word acc) }, { t with frame := none, seen := t.seen ++ [.nothing] }) := by
  have put_self : ∀ (m : Ref → Option Tokens) (a : Tokens), m x = some a → put m x a = m := by
    intro m a hm; funext r; unfold put; split
    · rename_i hr; rw [hr, hm]
    · rfl
  have put_put : ∀ (m : Ref → Option Tokens) (a b : Tokens), put (put m x a) x b = put m x b := by
    intro m a b; funext r; unfold put; split <;> rfl
  have hsave : ∀ (h : Heap F) (acc : Tokens), h.tokenizers z = some ⟨s, w, x⟩ → h.tokens x = some acc → ∀ word idx,
      saveInto h z word idx = { h with tokens := put h.tokens x (Tokenize.saveToken acc word idx) } := by
    intro h acc hz hx word idx
    unfold saveInto; rw [hz]; dsimp only; rw [hx]
  induction rest generalizing idx word h acc with
  | nil =>
    show solo c i p 0 (threadStep c i p h _) = _
    unfold solo threadStep loopStep
    dsimp only
    rw [hsave h acc hz hx]
    rfl
  | cons item rest ih =>
    show solo c i p (rest.length + 1) (threadStep c i p h _) = _
    unfold threadStep loopStep
    dsimp only
    rw [hz]
    dsimp only [Option.map, Option.getD]
    unfold Tokenize.loop
    by_cases hw : w.contains item
    · rw [if_pos hw, if_pos hw]
      dsimp only
      have e1 : (if word.length > 0 then saveInto h z word idx else h) =
          { h with tokens := put h.tokens x (if word.length > 0 then Tokenize.saveToken acc word idx else acc) } := by
        split
        · rw [hsave h acc hz hx]
        · rw [put_self _ _ hx]
      rw [e1]
      generalize (if word.length > 0 then Tokenize.saveToken acc word idx else acc) = acc1
      have e2 : (if item = '/' then saveInto ({ h with tokens := put h.tokens x acc1 } : Heap F) z [item] (idx + 1)
            else ({ h with tokens := put h.tokens x acc1 } : Heap F)) =
          { h with tokens := put h.tokens x (if item = '/' then Tokenize.saveToken acc1 [item] (idx + 1) else acc1) } := by
        split
        · rw [hsave { h with tokens := put h.tokens x acc1 } acc1 hz (put_at _ _ _)]; dsimp only; rw [put_put]
        · rfl
      rw [e2]
      generalize (if item = '/' then Tokenize.saveToken acc1 [item] (idx + 1) else acc1) = acc2
      refine (ih _ _ { h with tokens := put h.tokens x acc2 } hz acc2 (put_at _ _ _)).trans ?_
      dsimp only
      rw [put_put]
    · rw [if_neg hw, if_neg hw]
      exact ih _ _ h hz acc hx

theorem solo_ended (c : Nat) (i : Nat) (p : Program F) (n : Nat) (h : Heap F) (t : Thread F) (hf : t.frame = none) (hp : p t.seen = none) :
    solo c i p n (h, t) = (h, t) := by
  induction n with
  | zero => rfl
  | succ n ih =>
    show solo c i p n (threadStep c i p h t) = _
    unfold threadStep
    rw [hf]; dsimp only; rw [hp]
    exact ih

/-- The documented program shares nothing. -/
theorem documented_honest (s w : Str) : Honest (documentedUse (F := F) s w) := by
  intro seen d h r hr
  unfold documentedUse at h
  split at h <;> cases h <;> simp [Cmd.refs] at hr ⊢
  all_goals first
    | exact hr
    | (rcases hr with rfl | rfl <;> simp)

/-- What the documented program observes: the objects, and then what the parse of the tokens of the text gives. -/
def documentedResult (frames : Nat) (i : Nat) (s w : Str) : List (Obs F) :=
  [.ref (i, 0), .nothing, .nothing, .nothing, .ref (i, 2), .ref (i, 3)] ++
    (let r := Crash.parseF15 frames none Ers.new ⟨tokenizeList w s, 0⟩
    [outcome r.1, .route r.2.1])

/-- No more tokens than characters. -/
theorem tokens_le (w s : Str) : (tokenizeList w s).length ≤ s.length := by
  have h : ∀ (s : Str) (idx : Nat) (text : Str) (acc : Tokens),
      (Tokenize.loop w s idx text acc).toks.length ≤ acc.toks.length + s.length + (if text.length > 0 then 1 else 0) := by
    intro s
    have sv : ∀ (acc : Tokens) (text : Str) (idx : Nat), (Tokenize.saveToken acc text idx).toks.length =
        acc.toks.length + (if text.length > 0 then 1 else 0) := by
      intro acc text idx
      unfold Tokenize.saveToken
      split
      · simp [Tokens.createAppendToken, Tokens.appendToken]
      · rfl
    induction s with
    | nil => intro idx text acc; unfold Tokenize.loop; rw [sv]; simp
    | cons c s ih =>
      intro idx text acc
      unfold Tokenize.loop
      split
      · dsimp only
        refine Nat.le_trans (ih _ _ _) ?_
        simp only [List.length_nil, List.length_cons]
        have e0 : (if (0 : Nat) > 0 then 1 else 0) = 0 := rfl
        rw [e0]
        split
        · rw [sv]; split <;> (try rw [sv]) <;> simp_all <;> omega
        · split <;> (try rw [sv]) <;> simp_all <;> omega
      · refine Nat.le_trans (ih _ _ _) ?_
        simp only [List.length_append, List.length_cons, List.length_nil]
        split <;> split <;> omega
  have := h s 0 [] Tokens.new
  show (Tokenize.loop w s 0 [] Tokens.new).toks.length ≤ _
  simpa [Tokens.new] using this

theorem documented_solo (c : Nat) (s w : Str) :
    ∀ i n, 26 * s.length + 14 ≤ n → (solo c i (documentedUse s w) n (Heap.empty, Thread.start)).2.seen = documentedResult (F := F) c i s w := by
  have hN := solo_parse (F := F) (Tasks.parse c (tokenizeList w s)) ⟨Ers.new, ⟨tokenizeList w s, 0⟩⟩
  have hb := c62 c (Ers.new (F := F)) ⟨tokenizeList w s, 0⟩
  have hl := tokens_le w s
  intro i n hn
  dsimp only at hb
  generalize steps (Tasks.parse c (tokenizeList w s)) ⟨(Ers.new : Ers F), ⟨tokenizeList w s, 0⟩⟩ = q at hN hb
  generalize hq : q + 1 = N at hN
  replace hn : 4 + ((s.length + 1) + (3 + (N + 1))) ≤ n := by omega
  obtain ⟨k, rfl⟩ := Nat.exists_eq_add_of_le hn
  rw [solo_add, solo_add, solo_add, solo_add, solo_add]
  -- the first four calls
  let h4 : Heap F := ⟨put (put (put (put (fun _ => none) (i, 0) ⟨[], Tokenize.new.whitespace, (i, 1)⟩) (i, 0) ⟨s, Tokenize.new.whitespace, (i, 1)⟩)
      (i, 0) ⟨s, w, (i, 1)⟩) (i, 0) ⟨s, w, (i, 2)⟩, put (put (fun _ => none) (i, 1) Tokens.new) (i, 2) Tokens.new, fun _ => none⟩
  have s4 : solo c i (documentedUse s w) 4 (Heap.empty, Thread.start) =
      (h4, ⟨[.ref (i, 0), .nothing, .nothing], some (.tokenize ⟨(i, 0), s, 0, []⟩), 3⟩) := by
    simp only [solo, threadStep, Thread.start, documentedUse, callStep, Heap.empty, put_at, Option.toList, List.nil_append, List.cons_append, h4]
  rw [s4]
  have sl := solo_loop c i (documentedUse s w) (i, 0) (i, 2) s w s 0 [] h4 (put_at _ _ _) Tokens.new (put_at _ _ _)
    ⟨[.ref (i, 0), .nothing, .nothing], none, 3⟩
  dsimp only at sl
  rw [sl]
  have htok : Tokenize.loop w s 0 [] Tokens.new = ⟨tokenizeList w s, 0⟩ := by
    have hc : ∀ (ws s : Str) (idx : Nat) (text : Str) (acc : Tokens), (Tokenize.loop ws s idx text acc).cur = acc.cur := by
      intro ws s
      induction s with
      | nil => intro idx text acc; simp only [Tokenize.loop, Tokenize.saveToken]; split <;> rfl
      | cons c r ih =>
        intro idx text acc
        unfold Tokenize.loop
        split
        · dsimp only
          rw [ih]
          unfold Tokenize.saveToken
          repeat' split
          all_goals rfl
        · exact ih _ _ _
    have := hc w s 0 [] Tokens.new
    show _ = (⟨(Tokenize.loop w s 0 [] Tokens.new).toks, 0⟩ : Tokens)
    generalize Tokenize.loop w s 0 [] Tokens.new = q at this ⊢
    obtain ⟨a, b⟩ := q
    cases this; rfl
  rw [htok]
  unfold documentedResult
  have hz : h4.tokenizers (i, 0) = some ⟨s, w, (i, 2)⟩ := put_at _ _ _
  generalize h4 = g at hz ⊢
  -- `get_tokens`, the sequence, the call of `parse_f15`
  have s3 : solo c i (documentedUse s w) 3 (({ g with tokens := put g.tokens (i, 2) ⟨tokenizeList w s, 0⟩ } : Heap F),
      (⟨[.ref (i, 0), .nothing, .nothing] ++ [.nothing], none, 3⟩ : Thread F)) =
      ({ g with tokens := put g.tokens (i, 2) ⟨tokenizeList w s, 0⟩, ers := put g.ers (i, 3) Ers.new },
        ⟨[.ref (i, 0), .nothing, .nothing, .nothing, .ref (i, 2), .ref (i, 3)],
          some (.parse (i, 3) (i, 2) (Tasks.parse c (tokenizeList w s))), 4⟩) := by
    simp only [solo, threadStep, documentedUse, callStep, put_at, hz, Option.toList, List.nil_append, List.cons_append]
  rw [s3]
  have sp := hN c i (documentedUse s w) (i, 3) (i, 2)
    ({ g with tokens := put g.tokens (i, 2) ⟨tokenizeList w s, 0⟩, ers := put g.ers (i, 3) Ers.new } : Heap F)
    ⟨[.ref (i, 0), .nothing, .nothing, .nothing, .ref (i, 2), .ref (i, 3)], none, 4⟩ (put_at _ _ _) (put_at _ _ _)
  dsimp only at sp
  rw [sp]
  unfold Crash.parseF15
  rw [← Tasks.play_parse c (tokenizeList w s)]
  dsimp only
  generalize Tasks.play (Tasks.parse c (tokenizeList w s)) ⟨⟨(Ers.new : Ers F), ⟨tokenizeList w s, 0⟩⟩, none⟩ = r
  have s1 : ∀ (hp : Heap F) (o : Obs F), hp.ers (i, 3) = some r.2.st.ers →
      solo c i (documentedUse s w) 1 (hp, (⟨[.ref (i, 0), .nothing, .nothing, .nothing, .ref (i, 2), .ref (i, 3)] ++ [o], none, 4⟩ : Thread F)) =
        (hp, ⟨[.ref (i, 0), .nothing, .nothing, .nothing, .ref (i, 2), .ref (i, 3), o, .route r.2.st.ers], none, 4⟩) := by
    intro hp o ho
    simp only [solo, threadStep, documentedUse, callStep, ho, Option.toList, List.nil_append, List.cons_append]
  rw [s1 _ _ (put_at _ _ _)]
  rw [solo_ended _ _ _ _ _ _ rfl rfl]
  rfl

/-- The events of thread `i`, if nothing strikes it, are steps. -/
theorem only_steps {i : Nat} {schedule : List Event} (hs : ∀ v ∈ schedule, v.thread = i → v = .step i) :
    (schedule.filter fun v => v.thread == i) = List.replicate (schedule.countP fun v => v.thread == i) (.step i) := by
  rw [List.countP_eq_length_filter]
  apply List.eq_replicate_iff.2 ⟨rfl, fun v hv => ?_⟩
  have := List.mem_filter.1 hv
  exact hs v this.1 (by simpa using this.2)

/-- **C56** The documented use of the classes gives, in any number of threads at once and under every schedule that runs the thread for at least
26 steps per character, and 14, and
lets no exception strike it, the parse of the thread's own text, provided the other threads use objects of their own. -/
theorem c56_documented (frames : Nat) (s w : Str) :
    ∀ (progs : Nat → Program F) (_ : ∀ j, Honest (progs j)) (schedule : List Event) (i : Nat) (_ : progs i = documentedUse s w)
      (_ : ∀ v ∈ schedule, v.thread = i → v = .step i) (_ : 26 * s.length + 14 ≤ schedule.countP fun v => v.thread == i),
      ((World.run frames progs schedule).threads i).seen = documentedResult frames i s w := by
  intro progs hh schedule i hp hs hn
  rw [c56_partial frames progs hh schedule i _ (fun j => rfl), only_steps hs]
  unfold World.run
  rw [run_solo]
  rw [if_pos rfl, hp]
  exact documented_solo frames s w i _ hn

/-- **C56** In particular: the result and the elements of `parse_f15` for the thread's own text. -/
theorem c56_result (frames : Nat) (s w : Str) {b : Bool} {e : Ers F} (hr : parseF15 frames Ers.new ⟨tokenizeList w s, 0⟩ = .ok (b, e)) :
    ∀ (progs : Nat → Program F) (_ : ∀ j, Honest (progs j)) (schedule : List Event) (i : Nat) (_ : progs i = documentedUse s w)
      (_ : ∀ v ∈ schedule, v.thread = i → v = .step i) (_ : 26 * s.length + 14 ≤ schedule.countP fun v => v.thread == i),
      ((World.run frames progs schedule).threads i).seen.drop 6 = [.flag b, .route e] := by
  intro progs hh schedule i hp hs hn
  rw [c56_documented frames s w progs hh schedule i hp hs hn]
  have h := c58_same frames (Ers.new (F := F)) ⟨tokenizeList w s, 0⟩
  rw [full_eq] at hr
  unfold documentedResult
  cases hf : parseF15Full frames (Ers.new (F := F)) ⟨tokenizeList w s, 0⟩ with
  | error x => rw [hf] at hr; cases hr
  | ok q =>
    rw [hf] at hr h
    obtain ⟨⟨b', e'⟩, t'⟩ := q
    cases hr
    dsimp only at h
    rw [h]
    rfl

/-- The texts of the tokens a thread has read last. -/
def lastTexts (t : Thread F) : Option (List Str) :=
  match t.seen.getLast? with
  | some (.toks l) => some (l.map (·.text))
  | _ => none

/-- **C56 is false of a shared tokenizer**, although main.py:11-13 calls it stateless and thread safe: a thread may read tokens that are not those of its own
text. -/
theorem c56_false : ¬ ∀ (c : Nat) (s t w : Str) (schedule : List Event) (l : List Token),
    ((World.run (F := Rat) c (sharing s t w) schedule).threads 0).seen.getLast? = some (.toks l) → l = tokenizeList w s := by
  intro H
  have h : lastTexts ((World.run (F := Rat) 10 (sharing (py! "AB CD") (py! "EF") f15Whitespace)
      ([0, 0, 0, 0, 0, 0, 0, 1, 1, 1, 1, 1, 1, 0, 0, 0, 0, 0].map Event.step)).threads 0) = some [py! "EF", py! "CD"] := by decide +kernel
  unfold lastTexts at h
  split at h
  · rename_i l hl
    have h2 := H _ _ _ _ _ l hl
    have h3 : (tokenizeList f15Whitespace (py! "AB CD")).map (·.text) = [py! "AB", py! "CD"] := by decide +kernel
    rw [← h2] at h3
    rw [h3] at h
    revert h
    decide
  · cases h

/-- What a thread has observed last, if it is a sequence: the names of its elements and the numbers of its errors. -/
def lastRoute (t : Thread F) : Option (List Str × Nat) :=
  match t.seen.getLast? with
  | some (.route e) => some (e.recs.reverse.map (·.name), e.errs.length)
  | _ => none

/-- Three threads with objects of their own, under a schedule that changes thread at every step; thread 2 is struck by an exception in `parse_f15`. -/
example :
    let progs : Nat → Program Rat := fun i => if i = 1 then documentedUse (py! "N0450F350 ABC") f15Whitespace else
        documentedUse (py! "N0440F330 DCT/DEF") f15Whitespace
    let schedule := ((List.range 35).flatMap fun _ => [0, 1, 2].map Event.step) ++ [.strike 2 .recursionError fun _ => false] ++
      ((List.range 317).flatMap fun _ => [0, 1, 2].map Event.step)
    let w := World.run 100 progs schedule
    lastRoute (w.threads 1) = some ([py! "ADEP", py! "ABC", py! "ADES"], 0) ∧ lastRoute (w.threads 2) ≠ lastRoute (w.threads 0) ∧
    (schedule.countP fun v => v.thread == 1) = 26 * (py! "N0450F350 ABC").length + 14 := by
  decide +kernel

/-- **C57** A `Tokens` object that a thread has been given keeps its words and their places for ever, whatever is done with any tokenizer, any cursor and any
parser afterwards (the tokenizer starts a new list for each text). -/
theorem c57 (c : Nat) (progs : Nat → Program F) (hh : ∀ j, Honest (progs j)) (now later : List Event) (i : Nat) (x : Ref)
    (hx : Obs.ref x ∈ ((World.run c progs now).threads i).seen) (tk : Tokens) (ht : (World.run c progs now).heap.tokens x = some tk) :
    ∃ tk', (World.run c progs (now ++ later)).heap.tokens x = some tk' ∧ words tk'.toks = words tk.toks := by
  have h1 := run_owns c hh now World.start start_owns
  have h2 := (run_handed (c := c) hh now World.start start_owns start_handed).1
  have h3 := (run_handed (c := c) hh later (World.run c progs now) h1 h2).2 i x hx tk ht
  unfold World.run at h3 ⊢
  rw [List.foldl_append]
  exact h3

/-- A thread that tokenizes two texts with one tokenizer and parses the first list in between. -/
def reusing : Program F
  | [] => some .newTokenize
  | [.ref z] => some (.setString z (py! "N0450 ABC"))
  | [.ref z, _] => some (.tokenize z)
  | [.ref z, _, _] => some (.getTokens z)
  | [.ref z, _, _, .ref _] => some (.setString z (py! "XYZ"))
  | [.ref z, _, _, .ref _, _] => some (.tokenize z)
  | [_, _, _, .ref _, _, _] => some .newErs
  | [_, _, _, .ref x, _, _, .ref e] => some (.parse e x)
  | [_, _, _, .ref x, _, _, .ref _, _] => some (.readTokens x)
  | _ => none

/-- The hypotheses of `c57` are met by a thread that goes on using its tokenizer; the list it was given first is unchanged at the end. -/
example :
    Honest (reusing (F := Rat)) ∧
    (((World.run (F := Rat) 100 (fun _ => reusing) (List.replicate 14 (.step 0))).threads 0).seen.getLast?.map fun o =>
      match o with | .ref x => decide (x = (0, 2)) | _ => false) = some true ∧
    lastTexts ((World.run (F := Rat) 100 (fun _ => reusing) (List.replicate 300 (.step 0))).threads 0) =
      some [py! "N0450", py! "ABC"] := by
  refine ⟨?_, by decide +kernel, by decide +kernel⟩
  intro seen d h r hr
  unfold reusing at h
  split at h <;> cases h <;> simp [Cmd.refs] at hr ⊢
  all_goals first
    | exact hr
    | (rcases hr with rfl | rfl <;> simp)

end F15
