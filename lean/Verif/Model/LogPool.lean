import Verif.Model.CircularQ
import Mathlib.Logic.Relation

/-!
`spdlog::details::mpmc_blocking_queue` (spdlog/details/mpmc_blocking_q.h) and `spdlog::details::thread_pool`
(spdlog/details/thread_pool-inl.h) as threads that take turns.

A step is what a thread does while it holds the mutex, or a notification, or what it does with a message.  The mutex
makes the first kind atomic.  `wait` gives up the mutex and sleeps in one step; `notify_one` wakes one of the threads
that sleep on the condition variable, any of them, and does nothing if there is none.  A thread that is woken has to get
the mutex and to look again.  Sleeping threads may also wake up by themselves: by a spurious wakeup, or (workers) after
the ten seconds of `wait_for`, whose `false` makes `worker_loop_` call `dequeue_for` again.

Not modelled: exceptions, the reference counts that make the destructor wait for the clients (it starts when no client is
within a call any more), and what sinks do with a message.
-/

namespace Verif.LogPool

open CircularQ (CQ)

/-- `async_msg` (spdlog/details/thread_pool.h:22-80), with a number for its contents. -/
inductive Msg where
  | log (n : ℕ)
  | flush (n : ℕ)
  | terminate
  deriving DecidableEq, Inhabited

/-- `async_overflow_policy`. -/
inductive Policy where
  | block
  | overrun
  deriving DecidableEq

/-- What is still to be posted. -/
abbrev Script := List (Msg × Policy)

/-- Where a thread is. -/
inductive Thread where
  /-- A worker before it takes the mutex in `dequeue_for` (spdlog/details/mpmc_blocking_q.h:57). -/
  | want
  /-- A worker in `push_cv_.wait_for` (spdlog/details/mpmc_blocking_q.h:58). -/
  | asleep
  /-- A worker with a message before `pop_cv_.notify_one` (spdlog/details/mpmc_blocking_q.h:65). -/
  | popped (m : Msg)
  /-- A worker in the `switch` of `process_next_msg_` (spdlog/details/thread_pool-inl.h:105-122). -/
  | handling (m : Msg)
  /-- A worker that has left `worker_loop_` (spdlog/details/thread_pool-inl.h:88-91). -/
  | finished
  /-- A client or the destructor before it takes the mutex to post the next message
  (spdlog/details/mpmc_blocking_q.h:35, 46), or without further messages. -/
  | check (sc : Script)
  /-- The same in `pop_cv_.wait` (spdlog/details/mpmc_blocking_q.h:36). -/
  | blocked (sc : Script)
  /-- The same before `push_cv_.notify_one` (spdlog/details/mpmc_blocking_q.h:39, 49). -/
  | pushed (sc : Script)
  /-- The destructor before it starts, in a pool of `n` workers. -/
  | waiting (n : ℕ)

/-- All threads, the queue, the messages in the order in which they went into the queue, and those that workers have
dealt with. -/
structure St where
  q : CQ Msg
  threads : List Thread
  posted : List Msg
  sunk : List Msg

/-- A thread that `push_cv_` wakes. -/
def wakeWorker : Thread → Option Thread
  | .asleep => some .want
  | _ => none

/-- A thread that `pop_cv_` wakes. -/
def wakePoster : Thread → Option Thread
  | .blocked sc => some (.check sc)
  | _ => none

/-- `notify_one`. -/
inductive Notify (wake : Thread → Option Thread) : List Thread → List Thread → Prop
  | one (a : List Thread) (t t' : Thread) (b : List Thread) : wake t = some t' → Notify wake (a ++ t :: b) (a ++ t' :: b)
  | nobody (l : List Thread) : (∀ t ∈ l, wake t = none) → Notify wake l l

/-- No call of this thread is going on and none will follow. -/
def Idle : Thread → Prop
  | .check [] => True
  | .check _ | .blocked _ | .pushed _ | .waiting _ => False
  | _ => True

/-- One step of one thread. -/
inductive Step : St → St → Prop
  /-- `dequeue_for` finds a message (spdlog/details/mpmc_blocking_q.h:54-64). -/
  | take (q q' : CQ Msg) (a b : List Thread) (posted sunk : List Msg) (m : Msg) : CircularQ.empty q = false → CircularQ.front q = some m →
      CircularQ.pop q = some q' → Step ⟨q, a ++ .want :: b, posted, sunk⟩ ⟨q', a ++ .popped m :: b, posted, sunk⟩
  /-- `dequeue_for` finds nothing (spdlog/details/mpmc_blocking_q.h:58). -/
  | sleep (q : CQ Msg) (a b : List Thread) (posted sunk : List Msg) : CircularQ.empty q = true →
      Step ⟨q, a ++ .want :: b, posted, sunk⟩ ⟨q, a ++ .asleep :: b, posted, sunk⟩
  /-- `pop_cv_.notify_one()` (spdlog/details/mpmc_blocking_q.h:65). -/
  | notifyPop (q : CQ Msg) (a b l : List Thread) (posted sunk : List Msg) (m : Msg) : Notify wakePoster (a ++ .handling m :: b) l →
      Step ⟨q, a ++ .popped m :: b, posted, sunk⟩ ⟨q, l, posted, sunk⟩
  /-- A message for a sink (spdlog/details/thread_pool-inl.h:107-114). -/
  | sink (q : CQ Msg) (a b : List Thread) (posted sunk : List Msg) (m : Msg) : m ≠ .terminate →
      Step ⟨q, a ++ .handling m :: b, posted, sunk⟩ ⟨q, a ++ .want :: b, posted, sunk ++ [m]⟩
  /-- The end of a worker (spdlog/details/thread_pool-inl.h:116-118). -/
  | stop (q : CQ Msg) (a b : List Thread) (posted sunk : List Msg) :
      Step ⟨q, a ++ .handling .terminate :: b, posted, sunk⟩ ⟨q, a ++ .finished :: b, posted, sunk⟩
  /-- `enqueue` with room, or `enqueue_nowait` (spdlog/details/mpmc_blocking_q.h:32-50,
  spdlog/details/thread_pool-inl.h:76-86). -/
  | post (q q' : CQ Msg) (a b : List Thread) (posted sunk : List Msg) (m : Msg) (p : Policy) (sc : Script) : (p = .block → CircularQ.full q = false) →
      CircularQ.push q m = some q' → Step ⟨q, a ++ .check ((m, p) :: sc) :: b, posted, sunk⟩ ⟨q', a ++ .pushed sc :: b, posted ++ [m], sunk⟩
  /-- `enqueue` without room (spdlog/details/mpmc_blocking_q.h:36). -/
  | wait (q : CQ Msg) (a b : List Thread) (posted sunk : List Msg) (m : Msg) (sc : Script) : CircularQ.full q = true →
      Step ⟨q, a ++ .check ((m, .block) :: sc) :: b, posted, sunk⟩ ⟨q, a ++ .blocked ((m, .block) :: sc) :: b, posted, sunk⟩
  /-- `push_cv_.notify_one()` (spdlog/details/mpmc_blocking_q.h:39, 49). -/
  | notifyPush (q : CQ Msg) (a b l : List Thread) (posted sunk : List Msg) (sc : Script) : Notify wakeWorker (a ++ .check sc :: b) l →
      Step ⟨q, a ++ .pushed sc :: b, posted, sunk⟩ ⟨q, l, posted, sunk⟩
  /-- The destructor starts (spdlog/details/thread_pool-inl.h:38-53); its `join` is that all workers have finished. -/
  | destroy (q : CQ Msg) (a b : List Thread) (posted sunk : List Msg) (n : ℕ) : (∀ t ∈ a ++ b, Idle t) →
      Step ⟨q, a ++ .waiting n :: b, posted, sunk⟩ ⟨q, a ++ .check (List.replicate n (.terminate, .block)) :: b, posted, sunk⟩

/-- A thread wakes up without being notified. -/
inductive Spurious : St → St → Prop
  | worker (q : CQ Msg) (a b : List Thread) (posted sunk : List Msg) :
      Spurious ⟨q, a ++ .asleep :: b, posted, sunk⟩ ⟨q, a ++ .want :: b, posted, sunk⟩
  | poster (q : CQ Msg) (a b : List Thread) (posted sunk : List Msg) (sc : Script) :
      Spurious ⟨q, a ++ .blocked sc :: b, posted, sunk⟩ ⟨q, a ++ .check sc :: b, posted, sunk⟩

/-- A pool with `n` workers, a queue of `cap` items and clients (spdlog/details/thread_pool-inl.h:16-36). -/
def init (cap n : ℕ) (clients : List Script) : St :=
  ⟨CircularQ.new cap, List.replicate n .want ++ clients.map .check ++ [.waiting n], [], []⟩

/-- The states that can come about. -/
def Reach (s s' : St) : Prop := Relation.ReflTransGen (fun a b => Step a b ∨ Spurious a b) s s'

end Verif.LogPool
