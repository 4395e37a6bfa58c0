import Verif.Model.Random
import Mathlib.Logic.Function.Basic

/-! Model of several threads inside `generate_random_value` (include/caligo/random.h:12-35, built without `PLATFORM_HAS_RDSEED`, `testValues` empty).
`cval` is a static variable without a lock, so that simultaneous calls are a data race, which C++ leaves undefined. The model takes the mildest reading: the single
loads and stores of `cval` that the text contains happen one after the other, in any order that keeps the order within each thread. -/

namespace Verif.Model

/-- A thread: the position inside `generate_random_value` (0 is outside), the last value of `cval` that was loaded for an assignment, `rv`, and the values returned
so far. -/
structure Thread where
  pc : Nat := 0
  reg : U64 := 0#64
  rv : U64 := 0#64
  out : List U64 := []

/-- The next access to `cval`, which holds `c`: include/caligo/random.h:27 (a load and a store), 28 (a load), 32 (a load and a store), 33-34 (a load and the return). -/
def Thread.access (c : U64) (t : Thread) : U64 × Thread :=
  match t.pc with
  | 0 => (c, { t with pc := 1, reg := c })
  | 1 => (lcgStep t.reg, { t with pc := 2 })
  | 2 => (c, { t with pc := 3, rv := c &&& 0xFFFFFFFF00000000#64 })
  | 3 => (c, { t with pc := 4, reg := c })
  | 4 => (lcgStep t.reg, { t with pc := 5 })
  | _ => (c, { t with pc := 0, out := t.out ++ [t.rv ||| ((c >>> 32) &&& 0xFFFFFFFF#64)] })

/-- `cval` and the threads of a process -/
structure Threads where
  cval : U64
  thread : Nat → Thread

/-- One access by thread `i` -/
def Threads.step (s : Threads) (i : Nat) : Threads :=
  ⟨(Thread.access s.cval (s.thread i)).1, Function.update s.thread i (Thread.access s.cval (s.thread i)).2⟩

/-- Accesses in the order in which the threads are scheduled -/
def Threads.run (s : Threads) (schedule : List Nat) : Threads := schedule.foldl Threads.step s

/-- No thread has called yet: `cval` as given, see include/caligo/random.h:21 for its value in a fresh process. -/
def Threads.start (c : U64) : Threads := ⟨c, fun _ => {}⟩

end Verif.Model
