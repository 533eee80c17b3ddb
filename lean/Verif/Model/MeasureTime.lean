import Verif.Model.Py
import Mathlib.Algebra.Order.Field.Rat
import Mathlib.Logic.Function.Basic

/-!
# The timing decorator

`measure_time` (`sumo-api/sumo/metrics/utils.py:28-54`).
-/

namespace Sumo
namespace Timing

/-- What a timed function can see and change: whether the garbage collector is enabled, the clock (`timeit.default_timer`), and what was
printed: for each line the name and the time. -/
structure Runtime where
  gc : Bool
  clock : ℚ
  out : List (String × ℚ)
  deriving DecidableEq

/-- A function of Python with arguments `α`: it returns or raises, and may change the runtime. -/
abbrev Fn (α ε β : Type) := α → Runtime → Except ε β × Runtime

/-- The function that `measure_time` returns (`metrics/utils.py:41-54`), run without interruption by a signal.  Time passes only inside
`f`. -/
def measureTime {α ε β : Type} (name : String) (f : Fn α ε β) : Fn α ε β := fun a w =>
  let gcold := w.gc
  let w := { w with gc := false }
  let startTime := w.clock
  let (result, w) := f a w
  let elapsed := w.clock - startTime
  let w := if gcold then { w with gc := true } else w
  (result, { w with out := w.out ++ [(name, elapsed)] })

/-- The statements of the wrapper (`metrics/utils.py:43-53`) before which a signal (`KeyboardInterrupt`) can arrive. -/
inductive Line
  | look      -- `gcold = gc.isenabled()` (43)
  | disable   -- `gc.disable()` (44)
  | start     -- `start_time = …` (45)
  | call      -- `result = f(…)` (47), inside `try`
  | elapsed   -- `elapsed = …` (49), inside `finally`
  | restore   -- `if gcold: gc.enable()` (50-51)
  | print     -- (52)
  | ret       -- `return result` (53)
  deriving DecidableEq

/-- The same when a signal arrives before the given statement: its exception `interrupt` is raised there.  In `try` the `finally` clause
still runs; elsewhere the wrapper is left at once. -/
def interrupted {α ε β : Type} (name : String) (f : Fn α ε β) (interrupt : ε) (at_ : Line) : Fn α ε β := fun a w =>
  match at_ with
  | .look => (.error interrupt, w)
  | .disable => (.error interrupt, w)
  | .start => (.error interrupt, { w with gc := false })
  | .call => measureTime name (fun _ w => (.error interrupt, w)) a w
  | .elapsed => (.error interrupt, (f a { w with gc := false }).2)
  | .restore => (.error interrupt, (f a { w with gc := false }).2)
  | .print =>
    let v := (f a { w with gc := false }).2
    (.error interrupt, if w.gc then { v with gc := true } else v)
  | .ret => (.error interrupt, (measureTime name f a w).2)

/-! ### Threads -/

/-- Where a thread is in a call of a timed function that does not touch the collector: before line 43; after it, with `gcold`; after line
44; after line 51. -/
inductive Phase
  | ready
  | seen (gcold : Bool)
  | running (gcold : Bool)
  | done
  deriving DecidableEq

/-- The collector and all threads. -/
structure Threads (ι : Type) where
  gc : Bool
  phase : ι → Phase

/-- The next statement of thread `i` (`metrics/utils.py:43`, 44, 50-51); the collector is one for all threads. -/
def Threads.step {ι : Type} [DecidableEq ι] (s : Threads ι) (i : ι) : Threads ι :=
  match s.phase i with
  | .ready => { s with phase := Function.update s.phase i (.seen s.gc) }
  | .seen b => ⟨false, Function.update s.phase i (.running b)⟩
  | .running b => ⟨if b then true else s.gc, Function.update s.phase i .done⟩
  | .done => s

/-- A schedule. -/
def Threads.run {ι : Type} [DecidableEq ι] (s : Threads ι) (schedule : List ι) : Threads ι := schedule.foldl Threads.step s

end Timing
end Sumo
