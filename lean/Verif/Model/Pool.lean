import Verif.Core.Outcome

/-!
Model of the thread pool that runs the detection of the boards: `detectBoardsWithCamera` (McCalib.cpp:234-261) posts one
task per image to a `boost::asio::thread_pool` and joins it; a task (`detectBoardsInImageWithCamera`, 270-365) inserts
the boards it accepts, each under `insert_new_board_lock_`.

A task is represented by the list of its insertions, `[]` for an image that cannot be read or shows no board; what a task
does between two insertions touches no data of another task (see `Model/Race` for the exception) and is left out.  Posting
a task and taking one from the queue of the pool are single steps: the pool guards them by a mutex of its own, that it
never holds while it waits.  A worker leaves the pool when it finds that everything was posted and the queue is empty.
-/
namespace Verif.Pool

variable {α : Type}

/-- What a task does to shared data. -/
inductive Act (α : Type)
  | lock
  | insert (a : α)
  | unlock

/-- McCalib.cpp:355-360: take the mutex, insert, release it at the end of the block. -/
def insertActs (a : α) : List (Act α) := [.lock, .insert a, .unlock]

/-- McCalib.cpp:270-365: one image, its boards in the order of the loop at 299. -/
def taskActs (t : List α) : List (Act α) := t.flatMap insertActs

/-- A worker waits for a task, runs one (of which `rest` is left), or has left the pool. -/
inductive Worker (α : Type)
  | idle
  | busy (rest : List (Act α))
  | done

/-- `pending`: the images that the main thread has not posted yet (McCalib.cpp:249-258); `queue`: those posted that no
worker has taken; `holder`: the worker that holds `insert_new_board_lock_`; `log`: the insertions done. -/
structure State (α : Type) where
  pending : List (List α)
  queue : List (List α)
  workers : List (Worker α)
  holder : Option Nat
  log : List α

/-- McCalib.cpp:236-237: a pool of `n` workers; nothing is posted yet. -/
def start (n : Nat) (tasks : List (List α)) : State α := ⟨tasks, [], List.replicate n .idle, none, []⟩

/-- One step of the main thread or of a worker. -/
inductive Step : State α → State α → Prop
  /-- McCalib.cpp:254-256: the main thread posts the next image. -/
  | post {s : State α} {t ps} : s.pending = t :: ps → Step s { s with pending := ps, queue := s.queue ++ [t] }
  /-- A worker takes the first task of the queue. -/
  | take {s : State α} {w t q} : s.workers[w]? = some .idle → s.queue = t :: q →
      Step s { s with queue := q, workers := s.workers.set w (.busy (taskActs t)) }
  /-- McCalib.cpp:356: the mutex is free, and taken. -/
  | lock {s : State α} {w r} : s.workers[w]? = some (.busy (.lock :: r)) → s.holder = none →
      Step s { s with workers := s.workers.set w (.busy r), holder := some w }
  /-- McCalib.cpp:357-359: the insertion. -/
  | insert {s : State α} {w a r} : s.workers[w]? = some (.busy (.insert a :: r)) →
      Step s { s with workers := s.workers.set w (.busy r), log := s.log ++ [a] }
  /-- McCalib.cpp:360: the mutex is released. -/
  | unlock {s : State α} {w r} : s.workers[w]? = some (.busy (.unlock :: r)) → s.holder = some w →
      Step s { s with workers := s.workers.set w (.busy r), holder := none }
  /-- McCalib.cpp:365: the task is over. -/
  | finish {s : State α} {w} : s.workers[w]? = some (.busy []) → Step s { s with workers := s.workers.set w .idle }
  /-- McCalib.cpp:260: nothing is left to do, the worker ends. -/
  | exit {s : State α} {w} : s.workers[w]? = some .idle → s.pending = [] → s.queue = [] →
      Step s { s with workers := s.workers.set w .done }

/-- McCalib.cpp:260: `pool.join()` returns, all workers have ended. -/
def Joined (s : State α) : Prop := s.pending = [] ∧ ∀ w ∈ s.workers, w = .done

/-- `k` steps lead from one state to another. -/
inductive Steps : Nat → State α → State α → Prop
  | refl (s) : Steps 0 s s
  | step {k s t u} : Steps k s t → Step t u → Steps (k + 1) s u

end Verif.Pool
