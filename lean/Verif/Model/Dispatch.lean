/-
  The dispatch of synchronous driver functions to worker threads, as a transition system: event loop, tasks, and the worker threads of the thread pools.

  Models pysqlsync/util/dispatch.py (all of it), the way mssql/connection.py, oracle/connection.py and redshift/connection.py use it (`@thread_dispatch` on `open`, `close`,
  `_execute`, `_internal_execute_all`, `_internal_execute_typed`, `_query_all`, `insert_data`, `_insert_copy_stream_async`) and `BaseConnection.__aenter__`/`__aexit__`
  (base.py:565-574).

  What is taken from the standard library (asyncio, concurrent.futures), and is a premise of this model:
  * `loop.run_in_executor(pool, f)` submits one work item to the pool, and suspends the coroutine until the item is finished, or the task is cancelled;
  * a work item is pending, running, finished or dropped; a pending item may be dropped (`Future.cancel()`), a running one may not;
  * `Task.cancel()` on a task suspended in `run_in_executor` cancels the future it awaits; a callback of that future then tries to drop the work item, and a later callback
    resumes the coroutine with `CancelledError`;
  * leaving the `with` block calls `pool.shutdown(wait=True)`: a blocking (not an awaited) call, which returns when the thread of the pool has ended. Meanwhile the event loop
    runs nothing else;
  * the event loop runs one coroutine at a time, up to its next suspension. The model allows other tasks to run at more points than that (between two calls of the same task),
    hence it has more executions than the program.
  Not modelled: a thread that cannot be started, an interrupt signal delivered to the main thread while it waits in `shutdown`, the end of the interpreter.
-/
import Verif.Basic

set_option autoImplicit false

namespace PySqlSync.Dispatch

/-- A coroutine, as the event loop sees it: it is over, or it suspends.
    * `wait`: it awaits something other than a dispatched function (e.g. the next record of an asynchronous source, base.py:735), which yields a value or is cancelled.
    * `call c next cancel`: it awaits a function decorated with `thread_dispatch` (dispatch.py:22-28), with arguments `c`; `next r` is how it goes on if the function returns
      (or raises) `r`, `cancel` is how it goes on if `CancelledError` is raised (`finally` clauses, `__aexit__`, ...). -/
inductive Prog (C R : Type) where
  | done
  | wait (next : R → Prog C R) (cancel : Prog C R)
  | call (c : C) (next : R → Prog C R) (cancel : Prog C R)

/-- What is seen from the outside: a call is made, the function starts and finishes (in its thread), the call returns (`none`: it raises `CancelledError`). -/
inductive Event (C R : Type) where
  | called (c : C)
  | start (c : C)
  | finish (c : C) (r : R)
  | returned (c : C) (o : Option R)

/-- A work item of a thread pool (concurrent.futures `Future` states). -/
inductive Item (R : Type) where
  | pending
  | running
  | finished (r : R)
  | dropped

/-- `ThreadPoolExecutor(max_workers=1)` (dispatch.py:25) and the one work item submitted to it (dispatch.py:26-28). `owner` tells which task has created it. -/
structure Pool (C R : Type) where
  owner : Nat
  call : C
  item : Item R

/-- Where a task is. `k` is the pool that it has created in `invoke`.
    * `ready p`: to be run by the loop, going on as `p`;
    * `awaiting`: suspended at dispatch.py:26;
    * `cancelling`: the same, and `Task.cancel()` has been called; the future's callbacks have not run yet;
    * `revoked`: the first of the callbacks (the one that tries to drop the work item) has run;
    * `leaving k o next`: in `pool.shutdown(wait=True)` at the end of the `with` block (dispatch.py:25), with result or exception `o`, or `CancelledError` (`none`). -/
inductive Task (C R : Type) where
  | ready (p : Prog C R)
  | awaiting (k : Nat) (next : R → Prog C R) (cancel : Prog C R)
  | cancelling (k : Nat) (cancel : Prog C R)
  | revoked (k : Nat) (cancel : Prog C R)
  | leaving (k : Nat) (o : Option R) (next : Prog C R)
  | over

/-- The process: its tasks, its thread pools, and whether the event loop is blocked in `shutdown` by some task. `fresh` numbers the pools. -/
structure World (C R : Type) where
  tasks : Nat → Task C R
  pools : Nat → Option (Pool C R)
  fresh : Nat
  loop : Option Nat

/-- What a step shows: an event of a task, that a task is cancelled, or nothing. -/
inductive Label (C R : Type) where
  | event (i : Nat) (e : Event C R)
  | cancel (i : Nat)
  | quiet

/-- Function update. -/
def put {α : Type} (f : Nat → α) (i : Nat) (x : α) : Nat → α := fun j => if j = i then x else f j

/-- `Future.cancel()`: succeeds only on a pending item. -/
def Item.revoke {R : Type} : Item R → Item R
  | .pending => .dropped
  | it => it

/-- Whether the thread of a pool has nothing left to do, so that `shutdown(wait=True)` returns. -/
def Item.ended {R : Type} : Item R → Bool
  | .pending => false
  | .running => false
  | .finished _ => true
  | .dropped => true

variable {C R : Type}

/-- One step of the event loop, or of a worker thread. -/
inductive Step : World C R → Label C R → World C R → Prop
  /-- A coroutine ends. -/
  | conclude {w : World C R} {i : Nat} : w.loop = none → w.tasks i = .ready .done → Step w .quiet { w with tasks := put w.tasks i .over }
  /-- Something else that a coroutine has awaited is there. -/
  | resume {w : World C R} {i : Nat} {next : R → Prog C R} {cancel : Prog C R} (r : R) : w.loop = none → w.tasks i = .ready (.wait next cancel) →
      Step w .quiet { w with tasks := put w.tasks i (.ready (next r)) }
  /-- A coroutine is cancelled while it awaits something else. -/
  | interrupt {w : World C R} {i : Nat} {next : R → Prog C R} {cancel : Prog C R} : w.loop = none → w.tasks i = .ready (.wait next cancel) →
      Step w (.cancel i) { w with tasks := put w.tasks i (.ready cancel) }
  /-- dispatch.py:24-28: a pool is created, the function is submitted, the coroutine is suspended. -/
  | submit {w : World C R} {i : Nat} {c : C} {next : R → Prog C R} {cancel : Prog C R} : w.loop = none → w.tasks i = .ready (.call c next cancel) →
      Step w (.event i (.called c)) { w with tasks := put w.tasks i (.awaiting w.fresh next cancel), pools := put w.pools w.fresh (some ⟨i, c, .pending⟩), fresh := w.fresh + 1 }
  /-- The thread of a pool takes the work item. -/
  | start {w : World C R} {k i : Nat} {c : C} : w.pools k = some ⟨i, c, .pending⟩ →
      Step w (.event i (.start c)) { w with pools := put w.pools k (some ⟨i, c, .running⟩) }
  /-- The function returns or raises `r`. -/
  | finish {w : World C R} {k i : Nat} {c : C} (r : R) : w.pools k = some ⟨i, c, .running⟩ →
      Step w (.event i (.finish c r)) { w with pools := put w.pools k (some ⟨i, c, .finished r⟩) }
  /-- The loop resumes the coroutine with the result; it enters `shutdown`. -/
  | deliver {w : World C R} {i k : Nat} {next : R → Prog C R} {cancel : Prog C R} {j : Nat} {c : C} {r : R} : w.loop = none → w.tasks i = .awaiting k next cancel →
      w.pools k = some ⟨j, c, .finished r⟩ → Step w .quiet { w with tasks := put w.tasks i (.leaving k (some r) (next r)), loop := some i }
  /-- `Task.cancel()`, called by another task or a timeout. -/
  | cancel {w : World C R} {i k : Nat} {next : R → Prog C R} {cancel : Prog C R} : w.loop = none → w.tasks i = .awaiting k next cancel →
      Step w (.cancel i) { w with tasks := put w.tasks i (.cancelling k cancel) }
  /-- The callback of the cancelled future that tries to drop the work item. -/
  | revoke {w : World C R} {i k : Nat} {cancel : Prog C R} {j : Nat} {c : C} {it : Item R} : w.loop = none → w.tasks i = .cancelling k cancel →
      w.pools k = some ⟨j, c, it⟩ →
      Step w .quiet { w with tasks := put w.tasks i (.revoked k cancel), pools := put w.pools k (some ⟨j, c, it.revoke⟩) }
  /-- The callback of the cancelled future that resumes the coroutine with `CancelledError`; it enters `shutdown`. -/
  | wake {w : World C R} {i k : Nat} {cancel : Prog C R} : w.loop = none → w.tasks i = .revoked k cancel →
      Step w .quiet { w with tasks := put w.tasks i (.leaving k none cancel), loop := some i }
  /-- `shutdown(wait=True)` returns, and so does the call. -/
  | leave {w : World C R} {i k : Nat} {o : Option R} {next : Prog C R} {j : Nat} {c : C} {it : Item R} : w.loop = some i → w.tasks i = .leaving k o next →
      w.pools k = some ⟨j, c, it⟩ → it.ended = true →
      Step w (.event i (.returned c o)) { w with tasks := put w.tasks i (.ready next), loop := none }

/-- The process when the tasks have been created. -/
def World.init (ps : List (Prog C R)) : World C R where
  tasks i := match ps[i]? with
    | some p => .ready p
    | none => .over
  pools _ := none
  fresh := 0
  loop := none

/-- `Exec ps ls w`: the tasks `ps` have been run, under some schedule, with what was seen in `ls` (oldest first); `w` is the state now. -/
inductive Exec (ps : List (Prog C R)) : List (Label C R) → World C R → Prop
  | init : Exec ps [] (World.init ps)
  | step {ls : List (Label C R)} {w : World C R} {l : Label C R} {w' : World C R} : Exec ps ls w → Step w l w' → Exec ps (ls ++ [l]) w'

/-- `p` followed by `q` (the coroutine awaits another one; `try`/`finally`). -/
def Prog.andThen (p q : Prog C R) : Prog C R :=
  match p with
  | .done => q
  | .wait next cancel => .wait (fun r => (next r).andThen q) (cancel.andThen q)
  | .call c next cancel => .call c (fun r => (next r).andThen q) (cancel.andThen q)

/-- `async with engine.create_connection(...) as conn: body` (base.py:565-574): `__aenter__` awaits `open`, and if that raises (`good r = false`, or `CancelledError`), neither the body
    nor `__aexit__` is run; `__aexit__` awaits `close`, however the body has ended. -/
def Prog.within (good : R → Bool) (openCall closeCall : C) (body : Prog C R) : Prog C R :=
  .call openCall (fun r => if good r then body.andThen (.call closeCall (fun _ => .done) .done) else .done) .done

end PySqlSync.Dispatch
