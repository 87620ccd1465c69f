import Verif.Model.StatsProgram
/-!
# Model of the threads of kanjiStats (libs/stats/src/Stats.cpp:51-92, 140-179)

`countKanji` starts a thread for each of the nine categories (`std::async(std::launch::async, …)`, line 58) and then takes
their results with `get` (line 76).  Here the threads take their steps in any order.  The memory is that of the program: each
`Pred` object has its `_os` and its `_total`, there is a future for each thread, and `out()` is written to by the main thread.
A step of a thread is one call of `add` (Utf8Count.cpp:28-59), one round of the loop of lines 160-164, or the code between
them.  The data and the files are only read and don't change.  Starting a thread doesn't fail (`std::system_error`).
-/
namespace KT

/-- Where a thread is in `Pred::run`, with the variables of that function. -/
inductive ThreadPc where
  /-- `std::async` hasn't been called for it. -/
  | absent
  /-- Before line 141. -/
  | start
  /-- In `addFile` (line 157): what `count` knows, and the calls of `add` that remain. -/
  | adding (files directories : Nat) (count : CountState) (debug : DebugState) (calls : List (Str × Option Str))
  /-- In the loop of lines 160-164: the entries that remain, and the values added to `frequency`. -/
  | summing (count : CountState) (entries : List (Str × Nat)) (added : List StatCount)
  /-- It has returned or thrown. -/
  | ended

/-- Where the main thread is in `countKanji`. -/
inductive MainPc where
  /-- Lines 64-75, `i` threads have been started. -/
  | creating (i : Nat)
  /-- Line 76, before `get` of number `i`. -/
  | getting (i : Nat)
  /-- Line 77. -/
  | totals
  /-- An exception of `get` leaves the function: the destructor of the future of number `i - 1` is next, it waits for its
  thread. -/
  | unwinding (i : Nat) (e : Exc)
  | returned
  | threw (e : Exc)

/-- The memory of the program during `countKanji`. -/
structure Threads where
  pc : Nat → ThreadPc := fun _ => .absent
  /-- `_os` of the `Pred` object of each thread. -/
  os : Nat → Str := fun _ => []
  /-- `_total` of the `Pred` object of each thread. -/
  total : Nat → Nat := fun _ => 0
  /-- What is stored for `get`, if anything. -/
  future : Nat → Option (Except Exc Str) := fun _ => none
  main : MainPc := .creating 0
  /-- What `out()` has been given. -/
  out : Str := []

/-- The arguments of `countKanji`, the data, and what is found at the path. -/
structure StatsCall where
  data : StatsData
  breakdown : Bool
  verbose : Bool
  path : Str
  node : Option Node

def setAt {α : Type} (f : Nat → α) (i : Nat) (a : α) : Nat → α := fun j => if j = i then a else f j

/-- `_name` (lines 64-75). -/
def threadName (i : Nat) : Str := predNames.getD i []

/-- `removeFurigana` (line 149). -/
def removesFurigana (name : Str) : Bool :=
  decide (name = u8!"Hiragana") || decide (name = u8!"Katakana") || decide (name = u8!"MB-Letter")

/-- The replacement given to `count` (lines 154-156). -/
def threadFind (name : Str) : Option (Str → Str) := if removesFurigana name then some furiganaFind else none

/-- `isHiragana && verbose` (lines 152, 156, 157). -/
def StatsCall.shows (c : StatsCall) (name : Str) : Bool := decide (name = u8!"Hiragana") && c.verbose

/-- The second argument of `addFile` (line 157). -/
def StatsCall.addsTag (c : StatsCall) (name : Str) : Bool :=
  predIsKanji name || decide (name = u8!"Unrecognized") || decide (name = u8!"Hiragana") && c.verbose

/-- A step of thread `i`, `none` if it can't take one. -/
def threadStep (c : StatsCall) (i : Nat) (m : Threads) : Option (Res Threads) :=
  let name := threadName i
  match m.pc i with
  | .absent => none
  | .ended => none
  | .start =>
    -- lines 141-156 and the test at the start of `addFile`
    let os := m.os i ++ if c.shows name then u8!">>> Showing all Furigana replacements:\n" else []
    match addFile true true (pathFilename c.path) c.node with
    | .ub => some .ub
    | .throw e =>
      some (.ok { m with pc := setAt m.pc i .ended, os := setAt m.os i os, future := setAt m.future i (some (.error e)) })
    | .ok es =>
      match eventCalls (removesFurigana name) (c.addsTag name) es with
      | .ub => some .ub
      | .throw e =>
        some (.ok { m with pc := setAt m.pc i .ended, os := setAt m.os i os, future := setAt m.future i (some (.error e)) })
      | .ok calls =>
        some (.ok { m with
          pc := setAt m.pc i (.adding (es.countP (·.isFile)) (es.countP (·.isDir)) {} {} calls)
          os := setAt m.os i os })
  | .adding files directories count debug ((s, tag) :: calls) =>
    match count.add (threadFind name) (statAllow c.data.ucd i) s tag with
    | none => some .ub
    | some (count, _) =>
      -- `_debug` is `&_os` if `isHiragana && verbose`
      let debug := ({ debug with out := [] } : DebugState).add s (furiganaFind s) tag
      some (.ok { m with
        pc := setAt m.pc i (.adding files directories count debug calls)
        os := setAt m.os i (m.os i ++ if c.shows name then debug.out else []) })
  | .adding files directories count _ [] =>
    -- line 158
    some (.ok { m with
      pc := setAt m.pc i (.summing count (byKey count.map) [])
      os := setAt m.os i (m.os i ++ if i == 0 then headerInfo (shownPath c.path) files directories count else []) })
  | .summing count ((s, n) :: entries) added =>
    let value : StatCount :=
      { count := n, name := s, entry := if predIsKanji name then c.data.findByName s else none }
    some (.ok { m with
      pc := setAt m.pc i (.summing count entries (added ++ [value]))
      total := setAt m.total i (m.total i + n) })
  | .summing count [] added =>
    -- lines 165-178
    let os := m.os i ++ predText percentText name c.breakdown (fun s => (count.tagsOf s).map byKey) (m.total i)
      (c.data.set added)
    some (.ok { m with
      pc := setAt m.pc i .ended
      os := setAt m.os i os
      future := setAt m.future i (some (.ok os)) })

/-- The number of threads. -/
def threadCount : Nat := predNames.length

/-- A step of the main thread, `none` if it can't take one. -/
def mainStep (m : Threads) : Option (Res Threads) :=
  match m.main with
  | .creating i =>
    if i < threadCount then
      some (.ok { m with
        pc := setAt m.pc i .start
        os := setAt m.os i []
        total := setAt m.total i 0
        future := setAt m.future i none
        main := .creating (i + 1) })
    else some (.ok { m with main := .getting 0 })
  | .getting i =>
    if i < threadCount then
      match m.future i with
      | none => none -- it waits
      | some (.ok t) => some (.ok { m with main := .getting (i + 1), out := m.out ++ t })
      | some (.error e) => some (.ok { m with main := .unwinding threadCount e })
    else some (.ok { m with main := .totals })
  | .totals =>
    some (.ok { m with
      main := .returned
      out := m.out ++ totalLine percentText (predNames.zipIdx.map fun p => (p.1, m.total p.2)) })
  | .unwinding 0 e => some (.ok { m with main := .threw e })
  | .unwinding (i + 1) e =>
    match m.future i with
    | none => none -- it waits
    | some _ => some (.ok { m with main := .unwinding i e })
  | .returned => none
  | .threw _ => none

/-- A step of the main thread (`none`) or of thread `i`. -/
def anyStep (c : StatsCall) (who : Option Nat) (m : Threads) : Option (Res Threads) :=
  match who with
  | none => mainStep m
  | some i => threadStep c i m

/-- The call of `countKanji` when `out()` has been given `out` before. -/
def Threads.call (out : Str) : Threads := { out := out }

/-- An execution: who takes a step, and the memory after it. -/
inductive Execution (c : StatsCall) (out : Str) : List (Option Nat) → Threads → Prop where
  | begin : Execution c out [] (.call out)
  | step {order : List (Option Nat)} {m m' : Threads} (who : Option Nat) :
      Execution c out order m → anyStep c who m = some (.ok m') → Execution c out (order ++ [who]) m'

/-- The loop of line 48 with an execution for each file: what `out()` has been given before and after it, and the message of
the exception that leaves it (Utf8Count.cpp:63-64), if any. -/
inductive FilesRun (d : StatsData) (breakdown verbose : Bool) (fs : Str → Option Node) :
    List Str → Str → Str → Option Str → Prop where
  | done (out : Str) : FilesRun d breakdown verbose fs [] out out none
  | next {f : Str} {r : List Str} {out out' : Str} {msg : Option Str} {order : List (Option Nat)} {m : Threads} :
      Execution ⟨d, breakdown, verbose, f, fs f⟩ out order m → m.main = .returned →
      FilesRun d breakdown verbose fs r m.out out' msg → FilesRun d breakdown verbose fs (f :: r) out out' msg
  | failed {f : Str} {r : List Str} {out : Str} {order : List (Option Nat)} {m : Threads} {e : Exc} :
      Execution ⟨d, breakdown, verbose, f, fs f⟩ out order m → m.main = .threw e →
      FilesRun d breakdown verbose fs (f :: r) out m.out (some (u8!"file not found: " ++ f))

end KT
