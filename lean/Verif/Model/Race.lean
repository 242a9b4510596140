import Mathlib.Data.List.Basic

/-!
Model of the accesses to shared data made by the detection tasks: `detectBoardsInImageWithCamera` (McCalib.cpp:270-365)
run by the workers of a `boost::asio::thread_pool` (234-261).

Shared data: the detector parameters `charuco_params_` and the tables changed by `insertNewBoard` (594-642).  Mutexes:
the one of the pool's queue (held while a worker takes the next task) and `insert_new_board_lock_`.  Data that no task
writes (images, boards, options) is left out.
-/
namespace Verif.Race

/-- Shared data. -/
inductive Loc | params | tables
  deriving DecidableEq

/-- Mutexes. -/
inductive Mutex | queue | insert
  deriving DecidableEq

/-- What a worker does to shared data. -/
inductive Act
  | lock (m : Mutex)
  | unlock (m : Mutex)
  | read (x : Loc)
  | write (x : Loc)
  deriving DecidableEq

/-- McCalib.cpp:299-362, body of the loop over the boards: the detector reads the parameters (303-312); an accepted board
is inserted under the mutex (355-360). -/
def boardActs (accepted : Bool) : List Act :=
  .read .params :: if accepted then [.lock .insert, .read .tables, .write .tables, .unlock .insert] else []

/-- McCalib.cpp:270-365: one image; `none`: it cannot be read (273-277), otherwise which boards are accepted.  Lines
292-297 set a member of the shared parameters. -/
def imageActs : Option (List Bool) → List Act
  | none => []
  | some boards => .write .params :: boards.flatMap boardActs

/-- A worker takes a task from the queue and runs it. -/
def taskActs (image : Option (List Bool)) : List Act :=
  [.lock .queue, .unlock .queue] ++ imageActs image

/-- The images a worker handles, one after the other. -/
def workerActs (images : List (Option (List Bool))) : List Act := images.flatMap taskActs

/-- An execution: worker and action, in the order in which they happen. -/
abbrev Trace := List (Nat × Act)

/-- The worker that holds a mutex after a trace. -/
def holder (m : Mutex) (tr : Trace) : Option Nat :=
  tr.foldl (fun h e => if e.2 = .lock m then some e.1 else if e.2 = .unlock m then none else h) none

/-- Possible executions: each worker follows its program, and a mutex is taken only when it is free and released only by
its holder. -/
structure Valid (prog : Nat → List Act) (tr : Trace) : Prop where
  program : ∀ w, (tr.filter fun e => e.1 = w).map (·.2) <+: prog w
  lock : ∀ (i w : Nat) m, tr[i]? = some (w, .lock m) → holder m (tr.take i) = none
  unlock : ∀ (i w : Nat) m, tr[i]? = some (w, .unlock m) → holder m (tr.take i) = some w

/-- Happens before (C++17, 6.8.2.1): program order, and a release of a mutex before a later acquisition. -/
inductive Before (tr : Trace) : Nat → Nat → Prop
  | order {i j w a b} : i < j → tr[i]? = some (w, a) → tr[j]? = some (w, b) → Before tr i j
  | sync {i j w w' m} : i < j → tr[i]? = some (w, .unlock m) → tr[j]? = some (w', .lock m) → Before tr i j
  | trans {i j k} : Before tr i j → Before tr j k → Before tr i k

/-- Two accesses conflict: same data, at least one write. -/
def Conflict (x : Loc) (a b : Act) : Prop :=
  (a = .write x ∧ (b = .write x ∨ b = .read x)) ∨ (a = .read x ∧ b = .write x)

/-- A data race on `x`: two conflicting accesses of different workers, neither before the other. -/
def RaceOn (x : Loc) (tr : Trace) : Prop :=
  ∃ (i j w w' : Nat) (a b : Act), i < j ∧ tr[i]? = some (w, a) ∧ tr[j]? = some (w', b) ∧ w ≠ w' ∧ Conflict x a b ∧
    ¬ Before tr i j ∧ ¬ Before tr j i

end Verif.Race
