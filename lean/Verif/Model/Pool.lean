import Verif.Model.Mem
/-!
The thread pool of the collision tester: /repo/tests/collisions/pool.c with `POOL_MT` (the default) on the threads of
threading.h.

The pool is a transition system: workers (`POOL_thread`), any number of clients that call `POOL_add`, `POOL_tryAdd` and
`POOL_resize`, and the thread that calls `POOL_create` and `POOL_free`. `Action` says who moves and settles everything
the system decides: who gets the mutex, whom a signal wakes, spurious wakeups, failures of `malloc` and of the creation
of threads.

Simplifications:
* What a thread does from getting the mutex to releasing it (or to waiting, which releases it) is one action, `section`.
  Nobody else reads or writes these fields meanwhile: the other accesses are those of `POOL_create` and of `POOL_join`
  without the mutex, which are actions of their own. While `POOL_create` has yet to write `threadLimit`, a worker that
  reads it is a data race and undefined.
* `pthread_cond_signal` wakes one of those who wait, if there are any; waking more than one is a spurious wakeup.
* Jobs are numbers, they do not use the pool; a job that has been started comes to its end (`jobDone`).
* The failure of the first two `malloc` of `POOL_create` (line 146) is left out: no thread exists then.
* Sizes are natural numbers; the products and sums the code forms for `malloc` wrap around as `size_t` does.
-/
namespace XXH.Model.Pool

/-- A function and its argument (`POOL_job`, pool.c:41-44). -/
abbrev Job := Nat

/-- The sizes of the types. -/
structure Sys where
  /-- bits of `size_t` -/
  sizeBits : Nat
  /-- `sizeof(POOL_job)` -/
  jobSize : Nat
  /-- `sizeof(ZSTD_pthread_t)` -/
  handleSize : Nat

/-- The number of elements in an array for which `malloc(n * elem)` was called. -/
def Sys.elems (sys : Sys) (n elem : Nat) : Nat := n * elem % 2^sys.sizeBits / elem

/-- Where a worker is in `POOL_thread`, pool.c:78-118. -/
inductive Worker
  /-- about to get the mutex, line 84, also after waiting -/
  | lock
  /-- has the mutex, line 86 -/
  | hold
  /-- waits on `queuePopCond`, line 95 -/
  | wait
  /-- runs a job, line 106 -/
  | run (j : Job)
  /-- about to get the mutex after the job, line 109 -/
  | lock2
  /-- has the mutex after the job, line 110 -/
  | hold2
  /-- has returned, line 93 -/
  | exited
deriving DecidableEq

/-- The calls of clients. -/
inductive Req
  | add (j : Job)
  | tryAdd (j : Job)
  | resize (n : Nat)
deriving DecidableEq

/-- Where a client is. -/
inductive Client
  | idle
  /-- about to get the mutex -/
  | lock (r : Req)
  /-- has the mutex -/
  | hold (r : Req)
  /-- in `POOL_add`, waits on `queuePushCond`, line 277 -/
  | wait (j : Job)
deriving DecidableEq

/-- Where the thread is that creates and frees the pool. -/
inductive Control
  /-- in the loop of `POOL_create` for that many threads, lines 148-154 -/
  | creating (n : Nat)
  /-- between `POOL_create` and `POOL_free` -/
  | ready
  /-- about to get the mutex in `POOL_join`, line 166 -/
  | lock
  /-- has it, line 167 -/
  | hold
  /-- line 171 -/
  | wakePush
  /-- line 172 -/
  | wakePop
  /-- about to join thread `i`, line 177 -/
  | join (i : Nat)
  /-- everything is freed: the end of `POOL_free`, or of `POOL_create` when it fails -/
  | freed
deriving DecidableEq

/-- A thread. -/
inductive Tid
  | worker (i : Nat)
  | client (i : Nat)
  | control
deriving DecidableEq

/-- `POOL_ctx`, pool.c:46-71, with the threads that use it. -/
structure State where
  /-- the array; `none` is not initialised -/
  queue : List (Option Job)
  queueHead : Nat
  queueTail : Nat
  queueSize : Nat
  numThreadsBusy : Nat
  queueEmpty : Bool
  /-- `none` until `POOL_create` has written it -/
  threadLimit : Option Nat
  threadCapacity : Nat
  /-- number of elements of `threads` -/
  handles : Nat
  shutdown : Bool
  /-- who has `queueMutex` -/
  owner : Option Tid
  /-- the threads created so far -/
  workers : List Worker
  clients : List Client
  control : Control
  /-- jobs taken by `POOL_add` and `POOL_tryAdd`, in this order -/
  accepted : List Job
  /-- jobs taken from the queue, in this order -/
  started : List Job
  /-- jobs that have ended, in this order -/
  finished : List Job
  /-- jobs for which `POOL_tryAdd` has returned 0 -/
  refused : List Job

/-- What an action leads to. -/
inductive Out
  /-- not possible here -/
  | blocked
  | undefined
  | next (s : State)

/-- `POOL_create` up to its loop, pool.c:120-146, for `numThreads > 0`, when all memory is available. -/
def create (sys : Sys) (numThreads queueSize numClients : Nat) : State :=
  let queueSize := (queueSize + 1) % 2^sys.sizeBits
  { queue := List.replicate (sys.elems queueSize sys.jobSize) none
    queueHead := 0, queueTail := 0, queueSize := queueSize, numThreadsBusy := 0, queueEmpty := true
    threadLimit := none, threadCapacity := 0, handles := sys.elems numThreads sys.handleSize
    shutdown := false, owner := none, workers := [], clients := List.replicate numClients .idle
    control := .creating numThreads, accepted := [], started := [], finished := [], refused := [] }

/-- Decisions of the system in a section. -/
structure Choice where
  /-- who is woken by `pthread_cond_signal` -/
  signal : Option Nat
  /-- `POOL_resize`: `none` if `malloc` fails, else the number of threads created -/
  created : Option Nat

/-- A worker waits. -/
def Worker.waits : Worker → Bool
  | .wait => true
  | _ => false

/-- A client waits. -/
def Client.waits : Client → Bool
  | .wait _ => true
  | _ => false

/-- A worker after a wakeup. -/
def Worker.awake : Worker → Worker
  | .wait => .lock
  | w => w

/-- A client after a wakeup. -/
def Client.awake : Client → Client
  | .wait j => .lock (.add j)
  | c => c

/-- `pthread_cond_signal(&queuePushCond)`: wakes `c`, or nobody if nobody waits. -/
def signalPush (s : State) : Option Nat → Out
  | none => if s.clients.any Client.waits then .blocked else .next s
  | some c => match s.clients[c]? with
    | some (.wait j) => .next { s with clients := s.clients.set c (.lock (.add j)) }
    | _ => .blocked

/-- `pthread_cond_signal(&queuePopCond)` -/
def signalPop (s : State) : Option Nat → Out
  | none => if s.workers.any Worker.waits then .blocked else .next s
  | some w => match s.workers[w]? with
    | some .wait => .next { s with workers := s.workers.set w .lock }
    | _ => .blocked

/-- pool.c:88-95: the worker returns at shutdown, else it waits. -/
def sleep (s : State) (i : Nat) : Out :=
  .next { s with owner := none, workers := s.workers.set i (if s.shutdown then .exited else .wait) }

/-- pool.c:98-104: the worker takes a job. -/
def pop (s : State) (i : Nat) (signal : Option Nat) : Out :=
  match s.queue[s.queueHead]? with
  | some (some job) =>
    if s.queueSize = 0 then .undefined
    else
      let head := (s.queueHead + 1) % s.queueSize
      signalPush { s with
        queueHead := head, numThreadsBusy := s.numThreadsBusy + 1, queueEmpty := head == s.queueTail, owner := none
        workers := s.workers.set i (.run job), started := s.started ++ [job] } signal
  | _ => .undefined

/-- What a worker does with the mutex, pool.c:86-104 and 110-114. -/
def workerSection (s : State) (i : Nat) (ch : Choice) : Out :=
  match s.workers[i]? with
  | some .hold =>
    if s.queueEmpty then sleep s i
    else match s.threadLimit with
      | none => .undefined
      | some limit => if limit ≤ s.numThreadsBusy then sleep s i else pop s i ch.signal
  | some .hold2 =>
    let s' := { s with owner := none, numThreadsBusy := s.numThreadsBusy - 1, workers := s.workers.set i .lock }
    if s.queueSize = 1 then signalPush s' ch.signal else .next s'
  | _ => .blocked

/-- `isQueueFull`, pool.c:249-256; `none` is undefined. -/
def isQueueFull (s : State) : Option Bool :=
  if 1 < s.queueSize then some (s.queueHead = (s.queueTail + 1) % s.queueSize)
  else s.threadLimit.map fun limit => decide (s.numThreadsBusy = limit) || !s.queueEmpty

/-- `POOL_add_internal`, pool.c:259-269, and the return to the client. -/
def addInternal (s : State) (c : Nat) (job : Job) (signal : Option Nat) : Out :=
  let s := { s with owner := none, clients := s.clients.set c .idle }
  if s.shutdown then .next s
  else if s.queueSize = 0 ∨ s.queue.length ≤ s.queueTail then .undefined
  else signalPop { s with
    queueEmpty := false, queue := s.queue.set s.queueTail (some job)
    queueTail := (s.queueTail + 1) % s.queueSize, accepted := s.accepted ++ [job] } signal

/-- `pthread_cond_broadcast(&queuePopCond)` -/
def broadcastPop (s : State) : State := { s with workers := s.workers.map Worker.awake }

/-- `POOL_resize_internal`, pool.c:203-229, then `pthread_cond_broadcast` of `POOL_resize`, line 238. `created` threads
are started when there are too few. -/
def resize (sys : Sys) (s : State) (numThreads : Nat) (created : Option Nat) : Out :=
  if numThreads ≤ s.threadCapacity then
    if numThreads = 0 then .next (broadcastPop s)
    else .next (broadcastPop { s with threadLimit := some numThreads })
  else match created with
    | none => .next (broadcastPop s)
    | some k =>
      let handles := sys.elems numThreads sys.handleSize
      if numThreads - s.threadCapacity < k then .blocked
      -- `memcpy`, `threadPool[threadId]`
      else if handles < s.threadCapacity + k ∨ s.handles < s.threadCapacity then .undefined
      else
        let grown := { s with handles := handles, threadCapacity := s.threadCapacity + k
                              workers := s.workers ++ List.replicate k .lock }
        if k < numThreads - s.threadCapacity then .next (broadcastPop grown)
        else .next (broadcastPop { grown with threadLimit := some numThreads })

/-- What a client does with the mutex: `POOL_add` 276-280, `POOL_tryAdd` 288-294, `POOL_resize` 237-239. -/
def clientSection (sys : Sys) (s : State) (c : Nat) (ch : Choice) : Out :=
  match s.clients[c]? with
  | some (.hold (.add j)) => match isQueueFull s with
    | none => .undefined
    | some full =>
      if full && !s.shutdown then .next { s with owner := none, clients := s.clients.set c (.wait j) }
      else addInternal s c j ch.signal
  | some (.hold (.tryAdd j)) => match isQueueFull s with
    | none => .undefined
    | some true => .next { s with owner := none, clients := s.clients.set c .idle, refused := s.refused ++ [j] }
    | some false => addInternal s c j ch.signal
  | some (.hold (.resize n)) =>
    resize sys { s with owner := none, clients := s.clients.set c .idle } n ch.created
  | _ => .blocked

/-- Who moves, and how. -/
inductive Action
  /-- the next step of `POOL_create` or of `POOL_free`, except for the mutex; `ok`: `pthread_create` succeeds -/
  | control (ok : Bool)
  /-- a client calls -/
  | call (c : Nat) (r : Req)
  /-- the thread gets the mutex -/
  | lock (t : Tid)
  /-- the thread, which has the mutex, goes on until it releases it -/
  | section (t : Tid) (ch : Choice)
  /-- the job of the worker ends -/
  | jobDone (i : Nat)
  /-- a spurious wakeup -/
  | wake (t : Tid)
  /-- `POOL_free` is called -/
  | free

/-- The steps of `POOL_create` (148-158) and of `POOL_join` and `POOL_free` (164-190). -/
def controlStep (s : State) (ok : Bool) : Out :=
  match s.control with
  | .creating n =>
    if s.workers.length < n then
      if ok then
        if s.handles ≤ s.workers.length then .undefined else .next { s with workers := s.workers ++ [.lock] }
      else .next { s with threadCapacity := s.workers.length, control := .lock }
    else .next { s with threadCapacity := n, threadLimit := some n, control := .ready }
  | .wakePush => .next { s with clients := s.clients.map Client.awake, control := .wakePop }
  | .wakePop => .next { s with workers := s.workers.map Worker.awake, control := .join 0 }
  | .join i =>
    if i < s.threadCapacity then
      if s.workers[i]? = some .exited then .next { s with control := .join (i + 1) } else .blocked
    else .next { s with control := .freed }
  | _ => .blocked

/-- Getting the mutex. -/
def lockStep (s : State) (t : Tid) : Out :=
  if s.owner.isSome then .blocked
  else match t with
    | .worker i => match s.workers[i]? with
      | some .lock => .next { s with owner := some t, workers := s.workers.set i .hold }
      | some .lock2 => .next { s with owner := some t, workers := s.workers.set i .hold2 }
      | _ => .blocked
    | .client c => match s.clients[c]? with
      | some (.lock r) => .next { s with owner := some t, clients := s.clients.set c (.hold r) }
      | _ => .blocked
    | .control => if s.control = .lock then .next { s with owner := some t, control := .hold } else .blocked

/-- What is done with the mutex. -/
def sectionStep (sys : Sys) (s : State) (t : Tid) (ch : Choice) : Out :=
  if s.owner ≠ some t then .blocked
  else match t with
    | .worker i => workerSection s i ch
    | .client c => clientSection sys s c ch
    | .control =>
      if s.control = .hold then .next { s with owner := none, shutdown := true, control := .wakePush } else .blocked

/-- Wakes a thread that waits. -/
def wakeStep (s : State) (t : Tid) : Out :=
  match t with
  | .worker i => if s.workers[i]? = some .wait then .next { s with workers := s.workers.set i .lock } else .blocked
  | .client c => match s.clients[c]? with
    | some (.wait j) => .next { s with clients := s.clients.set c (.lock (.add j)) }
    | _ => .blocked
  | .control => .blocked

/-- One action. Using the pool when it is freed is undefined; so is calling it before it exists or while it is being
freed. -/
def step (sys : Sys) (s : State) : Action → Out
  | .control ok => controlStep s ok
  | .call c r =>
    if s.clients[c]? ≠ some .idle then .blocked
    else if s.control ≠ .ready then .undefined
    else .next { s with clients := s.clients.set c (.lock r) }
  | .lock t => match lockStep s t with
    | .next s' => if s.control = .freed then .undefined else .next s'
    | o => o
  | .section t ch => match sectionStep sys s t ch with
    | .next s' => if s.control = .freed then .undefined else .next s'
    | o => o
  | .jobDone i => match s.workers[i]? with
    | some (.run j) => .next { s with workers := s.workers.set i .lock2, finished := s.finished ++ [j] }
    | _ => .blocked
  | .wake t => wakeStep s t
  | .free => if s.control = .ready then .next { s with control := .lock } else .blocked

/-- What the pool asks of those who use it: `POOL_free` is called when no other call is under way, no calls after that
or before `POOL_create` has returned, and the handles of the threads fit into the address space. -/
def Legal (sys : Sys) (s : State) : Action → Prop
  | .call _ r => s.control = .ready ∧ ∀ n, r = .resize n → n * sys.handleSize < 2^sys.sizeBits
  | .free => ∀ c ∈ s.clients, c = .idle
  | _ => True

/-- The sizes the pool is created with fit into the address space. -/
structure Sizes (sys : Sys) (n queueSize : Nat) : Prop where
  threads : 1 ≤ n
  job : 0 < sys.jobSize
  handle : 0 < sys.handleSize
  queue : (queueSize + 1) * sys.jobSize < 2^sys.sizeBits
  handles : n * sys.handleSize < 2^sys.sizeBits

/-- What the pool does on its own: everything but new calls and spurious wakeups. -/
def Internal : Action → Bool
  | .call _ _ => false
  | .free => false
  | .wake _ => false
  | _ => true

/-- The states that legal use leads to. -/
inductive Reachable (sys : Sys) (start : State) : State → Prop
  | start : Reachable sys start start
  | step {s s' : State} {a : Action} :
      Reachable sys start s → Legal sys s a → step sys s a = .next s' → Reachable sys start s'

/-- The states that legal use leads to, with what was done, in this order. -/
inductive Exec (sys : Sys) (start : State) : List Action → State → Prop
  | start : Exec sys start [] start
  | step {acts : List Action} {s s' : State} {a : Action} :
      Exec sys start acts s → Legal sys s a → step sys s a = .next s' → Exec sys start (acts ++ [a]) s'

/-- The jobs that clients hand to the pool. -/
def called : List Action → List Job
  | [] => []
  | .call _ (.add j) :: as => j :: called as
  | .call _ (.tryAdd j) :: as => j :: called as
  | _ :: as => called as

/-- Runs a list of actions; `none` if one is not possible or is undefined. -/
def runs (sys : Sys) (s : State) : List Action → Option State
  | [] => some s
  | a :: as => match step sys s a with
    | .next s' => runs sys s' as
    | _ => none

end XXH.Model.Pool
