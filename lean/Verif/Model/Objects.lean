import Verif.Model.Tasks
/-!
# Objects, references and threads

The other model files treat `Tokenize`, `Tokens` and `ExtractedRouteSequence` objects as values. Here they live in a heap and are used through
references, by any number of threads whose steps are interleaved by a scheduler (main.py:11-13 recommends the classes for multi threading).

Granularity: a method call is one step, except for the two long ones. `Tokenize.tokenize` is one step for its first two statements, one for each pass of
its loop and one for its last statement. `parse_f15` is one step for its call, one for each primitive step of Model/Tasks.lean (a setter, a
getter, an append, a conversion) and one for its return. Between any two steps other threads can run, and in each step an exception from outside
can strike (`Event`).

Simplifications: the two statements, a loop pass and a primitive step are not divided any further; a reference is the number of the creating
thread and of the object (identity is not observable); lists that getters hand out are observed at once; `parse_f15` takes the texts of the tokens
when it is called.
-/

namespace F15
section
variable {F : Type} [PyFloat F]

/-- A reference to an object: the thread that created it and a number. -/
abbrev Ref := Nat × Nat

/-- A `Tokenize` object (Tokenize.py:11-27): its attributes; `tokens` is a reference to a `Tokens` object. -/
structure TokenizeObj where
  string : Str
  whitespace : Str
  tokens : Ref
deriving DecidableEq

/-- The objects in memory, by reference. The parser object `ParseF15()` has no attributes of its own (F15Parse.py:41-50 are constants of
the class), so it needs no place here. -/
structure Heap (F : Type) where
  tokenizers : Ref → Option TokenizeObj
  tokens : Ref → Option Tokens
  ers : Ref → Option (Ers F)

/-- Nothing in memory. -/
def Heap.empty : Heap F := ⟨fun _ => none, fun _ => none, fun _ => none⟩

/-- Store an object. -/
def put {α : Type} (m : Ref → Option α) (r : Ref) (a : α) : Ref → Option α := fun r' => if r' = r then some a else m r'

/-- The methods of `Tokens` that only use the cursor (Tokens.py:25-30, 79-141). -/
inductive CursorOp
  | first | last | next | previous | current | peekNext (n : Int) | peekPrevious (n : Int)
deriving DecidableEq

/-- What a user program can call. -/
inductive Cmd
  /-- `Tokenize()` -/
  | newTokenize
  /-- `z.set_string_to_tokenize(s)` -/
  | setString (z : Ref) (s : Str)
  /-- `z.set_whitespace(w)` -/
  | setWhitespace (z : Ref) (w : Str)
  /-- `z.get_string_to_tokenize()` -/
  | getString (z : Ref)
  /-- `z.get_whitespace()` -/
  | getWhitespace (z : Ref)
  /-- `z.tokenize()` -/
  | tokenize (z : Ref)
  /-- `z.get_tokens()` -/
  | getTokens (z : Ref)
  /-- a cursor method of the `Tokens` object `x` -/
  | cursor (x : Ref) (op : CursorOp)
  /-- `x.get_tokens()`: the tokens with all their attributes -/
  | readTokens (x : Ref)
  /-- `ExtractedRouteSequence()` -/
  | newErs
  /-- `ParseF15().parse_f15(e, x)` -/
  | parse (e x : Ref)
  /-- the getters of the sequence `e`: elements, errors and derived flight rules -/
  | readErs (e : Ref)
deriving DecidableEq

/-- The references in a call. -/
def Cmd.refs : Cmd → List Ref
  | .newTokenize | .newErs => []
  | .setString z _ | .setWhitespace z _ | .getString z | .getWhitespace z | .tokenize z | .getTokens z => [z]
  | .cursor x _ | .readTokens x => [x]
  | .parse e x => [e, x]
  | .readErs e => [e]

/-- What a call gives back to the program. -/
inductive Obs (F : Type)
  | nothing
  | ref (r : Ref)
  | text (s : Str)
  | token (t : Option Token)
  | toks (l : List Token)
  | flag (b : Bool)
  | route (e : Ers F)
  | raised (x : PyErr)

/-- The local variables of a running `tokenize` (Tokenize.py:37-38): the object, the rest of the string the `for` iterates over, `idx` and `token_text`. -/
structure Frame where
  obj : Ref
  rest : Str
  idx : Nat
  word : Str
deriving DecidableEq

/-- A call that goes on: `tokenize`, or `parse_f15(e, x)` with what is left to do. -/
inductive Running (F : Type)
  | tokenize (f : Frame)
  | parse (e x : Ref) (task : Tasks.Task (St Tokens F) Bool)

/-- A thread: what it has observed so far (newest last), the call it is in, and how many objects it has made. -/
structure Thread (F : Type) where
  seen : List (Obs F)
  frame : Option (Running F)
  made : Nat

/-- A thread that has not begun. -/
def Thread.start : Thread F := ⟨[], none, 0⟩

/-- A user program: the next call, depending on everything observed so far; none when it has ended. -/
abbrev Program (F : Type) := List (Obs F) → Option Cmd

/-- What a cursor method gives (Tokens.py:79-141). -/
def CursorOp.run (t : Tokens) : CursorOp → Except PyErr (Option Token) × Tokens
  | .first => t.getFirstToken
  | .last => t.getLastToken
  | .next => t.getNextToken
  | .previous => t.getPreviousToken
  | .current => (t.getCurrentToken, t)
  | .peekNext n => (t.peekNextToken n, t)
  | .peekPrevious n => (t.peekPreviousToken n, t)

/-- `self.__save_token(word, idx)` on the object `z` (Tokenize.py:96-105): the `Tokens` object is the one `self.tokens` refers to now. -/
def saveInto (h : Heap F) (z : Ref) (word : Str) (idx : Nat) : Heap F :=
  match h.tokenizers z with
  | none => h
  | some o =>
    match h.tokens o.tokens with
    | none => h
    | some t => { h with tokens := put h.tokens o.tokens (Tokenize.saveToken t word idx) }

/-- One pass of the loop of `tokenize`, or its end (Tokenize.py:39-52); `self.whitespace` is read in each pass. The second component is what is left of the
call, none when it returns. -/
def loopStep (h : Heap F) (f : Frame) : Heap F × Option Frame :=
  match f.rest with
  | [] => (saveInto h f.obj f.word f.idx, none)
  | item :: rest =>
    if ((h.tokenizers f.obj).map (·.whitespace)).getD [] |>.contains item then
      let h1 := if f.word.length > 0 then saveInto h f.obj f.word f.idx else h
      let h2 := if item = '/' then saveInto h1 f.obj [item] (f.idx + 1) else h1
      (h2, some { f with rest := rest, idx := f.idx + 1, word := [] })
    else (h, some { f with rest := rest, idx := f.idx + 1, word := f.word ++ [item] })

/-- The next step of `parse_f15(e, x)`, on the objects as they are now (Model/Tasks.lean). The second component is what is left of the call, the third
what is observed if it returns or raises. -/
def parseStep (h : Heap F) (e x : Ref) : Tasks.Task (St Tokens F) Bool → Heap F × Option (Tasks.Task (St Tokens F) Bool) × Option (Obs F)
  | .done (.ok b) => (h, none, some (.flag b))
  | .done (.error y) => (h, none, some (.raised y))
  | .act next write =>
    match h.ers e, h.tokens x with
    | some s, some t =>
      let s' := write ⟨s, t⟩
      ({ h with ers := put h.ers e s'.ers, tokens := put h.tokens x s'.toks }, some (next ⟨s, t⟩), none)
    | _, _ => (h, none, some (.raised .attributeError))

/-- The exception `y` strikes during the next step of `parse_f15(e, x)`; `w` says which of the writes of the step are done (Model/Crash.lean). -/
def parseStruck (h : Heap F) (e x : Ref) (w : Nat → Bool) : Tasks.Task (St Tokens F) Bool → Heap F
  | .done _ => h
  | .act _ write =>
    match h.ers e, h.tokens x with
    | some s, some t =>
      let s' := Crash.blend w ⟨s, t⟩ (write ⟨s, t⟩)
      { h with ers := put h.ers e s'.ers, tokens := put h.tokens x s'.toks }
    | _, _ => h

/-- A call by thread `i`, which has made `made` objects. Gives the heap, what is observed (none if the call goes on), the running call and the number
of objects made; `frames` is the stack space for `parse_f15`. A reference to nothing, or to an object of another class, raises `AttributeError`. -/
def callStep (frames : Nat) (i made : Nat) (h : Heap F) : Cmd → Heap F × Option (Obs F) × Option (Running F) × Nat
  -- Tokenize.py:20-27
  | .newTokenize =>
    ({ h with
        tokenizers := put h.tokenizers (i, made) ⟨[], Tokenize.new.whitespace, (i, made + 1)⟩
        tokens := put h.tokens (i, made + 1) Tokens.new },
      some (.ref (i, made)), none, made + 2)
  -- Tokenize.py:54-60
  | .setString z s =>
    match h.tokenizers z with
    | none => (h, some (.raised .attributeError), none, made)
    | some o => ({ h with tokenizers := put h.tokenizers z { o with string := s } }, some .nothing, none, made)
  -- Tokenize.py:69-80
  | .setWhitespace z w =>
    match h.tokenizers z with
    | none => (h, some (.raised .attributeError), none, made)
    | some o => ({ h with tokenizers := put h.tokenizers z { o with whitespace := w } }, some .nothing, none, made)
  -- Tokenize.py:62-67
  | .getString z =>
    match h.tokenizers z with
    | none => (h, some (.raised .attributeError), none, made)
    | some o => (h, some (.text o.string), none, made)
  -- Tokenize.py:82-87
  | .getWhitespace z =>
    match h.tokenizers z with
    | none => (h, some (.raised .attributeError), none, made)
    | some o => (h, some (.text o.whitespace), none, made)
  -- Tokenize.py:36-39: `self.tokens = Tokens()`, and the `for` takes the string
  | .tokenize z =>
    match h.tokenizers z with
    | none => (h, some (.raised .attributeError), none, made)
    | some o =>
      ({ h with
          tokenizers := put h.tokenizers z { o with tokens := (i, made) }
          tokens := put h.tokens (i, made) Tokens.new },
        none, some (.tokenize ⟨z, o.string, 0, []⟩), made + 1)
  -- Tokenize.py:89-94
  | .getTokens z =>
    match h.tokenizers z with
    | none => (h, some (.raised .attributeError), none, made)
    | some o => (h, some (.ref o.tokens), none, made)
  -- Tokens.py:79-141
  | .cursor x op =>
    match h.tokens x with
    | none => (h, some (.raised .attributeError), none, made)
    | some t =>
      let r := op.run t
      ({ h with tokens := put h.tokens x r.2 },
        some (match r.1 with | .ok o => .token o | .error y => .raised y), none, made)
  -- Tokens.py:61-66
  | .readTokens x =>
    match h.tokens x with
    | none => (h, some (.raised .attributeError), none, made)
    | some t => (h, some (.toks t.toks), none, made)
  -- ExtractedRouteSequence.py:20-29
  | .newErs => ({ h with ers := put h.ers (i, made) Ers.new }, some (.ref (i, made)), none, made + 1)
  -- F15Parse.py:52-128
  | .parse e x =>
    match h.ers e, h.tokens x with
    | some _, some t => (h, none, some (.parse e x (Tasks.parse frames t.toks)), made)
    | _, _ => (h, some (.raised .attributeError), none, made)
  -- ExtractedRouteSequence.py:122-142
  | .readErs e =>
    match h.ers e with
    | none => (h, some (.raised .attributeError), none, made)
    | some s => (h, some (.route s), none, made)

/-- A step of thread `i`: the running call goes on, or the program makes its next call. -/
def threadStep (frames : Nat) (i : Nat) (p : Program F) (h : Heap F) (t : Thread F) : Heap F × Thread F :=
  match t.frame with
  | some (.tokenize f) =>
    let r := loopStep h f
    (r.1, match r.2 with
      | some f' => { t with frame := some (.tokenize f') }
      | none => { t with frame := none, seen := t.seen ++ [.nothing] })
  | some (.parse e x k) =>
    let r := parseStep h e x k
    (r.1, { t with frame := r.2.1.map (.parse e x), seen := t.seen ++ r.2.2.toList })
  | none =>
    match p t.seen with
    | none => (h, t)
    | some d =>
      let r := callStep frames i t.made h d
      (r.1, ⟨t.seen ++ r.2.1.toList, r.2.2.1, r.2.2.2⟩)

/-- The exception `y` strikes in a step of the call that a thread is in: the call ends with it. `w` says which of the writes of the step are done; a
pass of the loop of `tokenize` is done as a whole or not at all. A thread that is in no call is not concerned. -/
def threadStruck (h : Heap F) (t : Thread F) (y : PyErr) (w : Nat → Bool) : Heap F × Thread F :=
  match t.frame with
  | some (.tokenize f) => (if w 0 then (loopStep h f).1 else h, { t with frame := none, seen := t.seen ++ [.raised y] })
  | some (.parse e x k) => (parseStruck h e x w k, { t with frame := none, seen := t.seen ++ [.raised y] })
  | none => (h, t)

/-- The memory and all threads. -/
structure World (F : Type) where
  heap : Heap F
  threads : Nat → Thread F

/-- Before anything has run. -/
def World.start : World F := ⟨Heap.empty, fun _ => Thread.start⟩

/-- What happens next: a thread makes a step, or an exception from outside strikes it. -/
inductive Event
  | step (i : Nat)
  | strike (i : Nat) (what : PyErr) (written : Nat → Bool)

/-- The thread concerned. -/
def Event.thread : Event → Nat
  | .step i => i
  | .strike i _ _ => i

/-- The event `v` for thread `i` with the program `p`. -/
def Event.act (frames : Nat) (v : Event) (p : Program F) (h : Heap F) (t : Thread F) : Heap F × Thread F :=
  match v with
  | .step i => threadStep frames i p h t
  | .strike _ y w => threadStruck h t y w

/-- One event. -/
def World.step (frames : Nat) (progs : Nat → Program F) (w : World F) (v : Event) : World F :=
  let r := v.act frames (progs v.thread) w.heap (w.threads v.thread)
  ⟨r.1, fun j => if j = v.thread then r.2 else w.threads j⟩

/-- A run: the scheduler chooses the thread for each step, and exceptions strike at any time. -/
def World.run (frames : Nat) (progs : Nat → Program F) (schedule : List Event) : World F :=
  schedule.foldl (World.step frames progs) World.start

end
end F15
