/-!
Interleaving model of `StaticParallelForRangeLoop` / `StaticParallelForIndexLoop`
(common_robotics_utilities, outside /repo): every thread runs its own program; the threads share one
memory; one micro-step is one read or one write of one memory cell by one thread; the scheduler picks
the threads in any order.
-/
set_option autoImplicit false

namespace VGT.Par

/-- A thread program over a memory of cells `I → V`. -/
inductive Prog (I V : Type) where
  | done
  | read (i : I) (k : V → Prog I V)
  | write (i : I) (v : V) (k : Prog I V)
  /-- undefined behaviour in the thread -/
  | ub

namespace Prog
variable {I V : Type} [DecidableEq I]

/-- Sequential composition of thread programs. -/
def andThen : Prog I V → Prog I V → Prog I V
  | done, q => q
  | read i k, q => read i fun v => andThen (k v) q
  | write i v k, q => write i v (andThen k q)
  | ub, _ => ub

/-- Memory update. -/
def set (m : I → V) (i : I) (v : V) : I → V := fun j => if j = i then v else m j

/-- Run one program alone to completion; `none` is undefined behaviour. -/
def run : Prog I V → (I → V) → Option (I → V)
  | done, m => some m
  | read i k, m => run (k (m i)) m
  | write i v k, m => run k (set m i v)
  | ub, _ => none

/-- One micro-step of a program (`none`: finished or undefined behaviour). -/
def step1 : Prog I V → (I → V) → Option (Prog I V × (I → V))
  | done, _ => none
  | read i k, m => some (k (m i), m)
  | write i v k, m => some (k, set m i v)
  | ub, _ => none

end Prog

/-- State of a parallel section: the remaining program of every thread and the shared memory. -/
structure PState (I V : Type) where
  threads : List (Prog I V)
  mem : I → V

/-- Let thread `t` do one micro-step (no effect if it is finished). -/
def schedStep {I V : Type} [DecidableEq I] (s : PState I V) (t : Nat) : PState I V :=
  match s.threads[t]? with
  | none => s
  | some p =>
    match p.step1 s.mem with
    | none => s
    | some (p', m') => { threads := s.threads.set t p', mem := m' }

/-- Run a schedule: a list of thread numbers. -/
def runSched {I V : Type} [DecidableEq I] (s : PState I V) (sched : List Nat) : PState I V :=
  sched.foldl schedStep s

/-- All threads have finished: the parallel section returns. -/
def finished {I V : Type} (s : PState I V) : Prop := ∀ p ∈ s.threads, p = Prog.done

end VGT.Par
