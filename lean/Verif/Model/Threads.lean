import Verif.Model.Convert

/-!
# Executions of `convert_multi_thread`

`src/multi_thread.rs:49-79` hands one closure per strip to rayon, which runs them on any number of threads in any
order.  Here every strip has a worker of its own, and workers take their steps in any order: whatever rayon does is
one of these interleavings.

Memory is shared and weaker than any real one:
* a load may return any value the byte has had since the parallel section began, independently for every byte and
  every call of `visit`;
* stores are buffered: a worker may go on to read for its next call before its stores are done, its buffered stores
  may happen in any order, and a store may become visible byte by byte, in any order, any number of times.

Not modelled: rayon's own synchronisation (the return of `try_for_each` happens after all started closures have
ended, at which point their stores are visible to the caller).
-/

namespace Ezk

variable {F : Type} [FOps F]

/-- One closure call of `src/multi_thread.rs:50-78`, inside of `visit` (`src/formats/visit_2x2.rs:75-94`). -/
structure Worker (F : Type) where
  visitor : Visitor F
  /-- calls of `visitor.visit` still to be made, in order -/
  todo : List VisitCall
  /-- stores issued, but not completed -/
  pending : List (Mem → Exec Mem)

/-- The whole system during the parallel section. (`src/multi_thread.rs:49-79`) -/
structure Threads (F : Type) where
  mem : Mem
  /-- the values a byte has had since the section began -/
  seen : Nat → UInt8 → Prop
  workers : List (Worker F)

/-- The memory changes. (`src/multi_thread.rs:49-79`) -/
def Threads.setMem (s : Threads F) (m : Mem) : Threads F :=
  { s with mem := m, seen := fun a b => s.seen a b ∨ b = m a }

/-- A worker gets on with its work. (in the loop of `src/formats/visit_2x2.rs:75-94`) -/
inductive Advance (c : Cpu F) (s : Threads F) : Threads F → Prop
  /-- the read phase of the next call, on values `view` -/
  | call (i : Nat) (w : Worker F) (k : VisitCall) (ks : List VisitCall) (view : Mem) (sts : List (Mem → Exec Mem))
      (hw : s.workers[i]? = some w) (hk : w.todo = k :: ks) (hview : ∀ a, s.seen a (view a))
      (hp : w.visitor.prepare (c.backend k.vectored) k.x k.y view = .ok sts) :
      Advance c s { s with workers := s.workers.set i { w with todo := ks, pending := w.pending ++ sts } }
  /-- one of its stores completes -/
  | store (i : Nat) (w : Worker F) (l₁ : List (Mem → Exec Mem)) (st : Mem → Exec Mem) (l₂ : List (Mem → Exec Mem))
      (m : Mem) (hw : s.workers[i]? = some w) (hp : w.pending = l₁ ++ st :: l₂) (hm : st s.mem = .ok m) :
      Advance c s { s.setMem m with workers := s.workers.set i { w with pending := l₁ ++ l₂ } }

/-- Some bytes of a store become visible. (the stores of `src/vector/avx2.rs:172-224` need not be atomic) -/
inductive Tear (s : Threads F) : Threads F → Prop
  | mk (i : Nat) (w : Worker F) (st : Mem → Exec Mem) (m₁ m₂ : Mem) (hw : s.workers[i]? = some w)
      (hst : st ∈ w.pending) (hm : st s.mem = .ok m₁) (h : ∀ a, m₂ a = s.mem a ∨ m₂ a = m₁ a) : Tear s (s.setMem m₂)

/-- A worker panics or runs into undefined behaviour. (`src/multi_thread.rs:50-78`) -/
inductive Faulty (c : Cpu F) (s : Threads F) : Fault → Prop
  | call (i : Nat) (w : Worker F) (k : VisitCall) (ks : List VisitCall) (view : Mem) (f : Fault)
      (hw : s.workers[i]? = some w) (hk : w.todo = k :: ks) (hview : ∀ a, s.seen a (view a))
      (hp : w.visitor.prepare (c.backend k.vectored) k.x k.y view = .error f) : Faulty c s f
  | store (i : Nat) (w : Worker F) (st : Mem → Exec Mem) (f : Fault) (hw : s.workers[i]? = some w)
      (hst : st ∈ w.pending) (hm : st s.mem = .error f) : Faulty c s f

/-- Executions. (`src/multi_thread.rs:49-79`) -/
inductive Reach (c : Cpu F) (s : Threads F) : Threads F → Prop
  | refl : Reach c s s
  | advance {t u : Threads F} : Reach c s t → Advance c t u → Reach c s u
  | tear {t u : Threads F} : Reach c s t → Tear t u → Reach c s u

/-- All work is done. (`try_for_each` returns, `src/multi_thread.rs:49-79`) -/
def Threads.Finished (s : Threads F) : Prop := ∀ w ∈ s.workers, w.todo = [] ∧ w.pending = []

/-- The worker for a job: the loops of `visit_impl`, `src/formats/visit_2x2.rs:75-94`. -/
def Job.worker (c : Cpu F) (j : Job F) : Worker F :=
  ⟨j.visitor, visitCalls c.vec.LEN j.width j.height, []⟩

/-- The workers of those closures that get as far as `visit`. (`src/multi_thread.rs:50-78`) -/
def taskWorker (c : Cpu F) : Exec (Except ConvertError (Job F)) → Option (Worker F)
  | .ok (.ok j) => some (j.worker c)
  | _ => none

/-- The beginning of the parallel section. (`src/multi_thread.rs:49`) -/
def Threads.start (c : Cpu F) (tasks : List (Exec (Except ConvertError (Job F)))) (m : Mem) : Threads F :=
  ⟨m, fun a b => b = m a, tasks.filterMap (taskWorker c)⟩

/-- The possible outcomes of `convert_multi_thread` (`src/multi_thread.rs:11-80`) on a machine with `threads` CPUs:
a fault, or the returned `Result` and the memory afterwards. -/
inductive MtRuns (c : Cpu F) (threads : Nat) (src dst : Img) (m : Mem) :
    Exec (Except ConvertError Unit × Mem) → Prop
  /-- a panic before the parallel section (lines 31-47) -/
  | planFault {f : Fault} (h : mtPlan (F := F) threads src dst = .error f) : MtRuns c threads src dst m (.error f)
  /-- `verify_input_windows(..)?` (line 15) -/
  | fail {e : ConvertError} (h : mtPlan (F := F) threads src dst = .ok (.fail e)) :
      MtRuns c threads src dst m (.ok (.error e, m))
  /-- no parallel section (lines 17-25) -/
  | single {j : Exec (Except ConvertError (Job F))} (h : mtPlan threads src dst = .ok (.single j)) :
      MtRuns c threads src dst m (runJob c j m)
  /-- a closure panics before `visit`; rayon propagates the panic -/
  | taskFault {tasks : List (Exec (Except ConvertError (Job F)))} {f : Fault}
      (h : mtPlan threads src dst = .ok (.parallel tasks)) (ht : .error f ∈ tasks) :
      MtRuns c threads src dst m (.error f)
  /-- the assertions in `visit` (`src/formats/visit_2x2.rs:14-15`) -/
  | taskAssert {tasks : List (Exec (Except ConvertError (Job F)))} {j : Job F}
      (h : mtPlan threads src dst = .ok (.parallel tasks)) (ht : .ok (.ok j) ∈ tasks)
      (hj : j.width % 2 ≠ 0 ∨ j.height % 2 ≠ 0) : MtRuns c threads src dst m (.error (.panic .assertion))
  /-- a closure returns `Err`: `try_for_each` returns one of these errors; other closures may not have been run, or
  have been run -/
  | taskErr {tasks : List (Exec (Except ConvertError (Job F)))} {e : ConvertError} {s : Threads F}
      (h : mtPlan threads src dst = .ok (.parallel tasks)) (ht : .ok (.error e) ∈ tasks)
      (hs : Reach c (Threads.start c tasks m) s) : MtRuns c threads src dst m (.ok (.error e, s.mem))
  /-- a worker faults -/
  | stepFault {tasks : List (Exec (Except ConvertError (Job F)))} {s : Threads F} {f : Fault}
      (h : mtPlan threads src dst = .ok (.parallel tasks)) (hs : Reach c (Threads.start c tasks m) s)
      (hf : Faulty c s f) : MtRuns c threads src dst m (.error f)
  /-- all closures have returned `Ok(())` -/
  | done {tasks : List (Exec (Except ConvertError (Job F)))} {s : Threads F}
      (h : mtPlan threads src dst = .ok (.parallel tasks)) (ht : ∀ t ∈ tasks, ∃ j, t = .ok (.ok j))
      (hs : Reach c (Threads.start c tasks m) s) (hfin : s.Finished) : MtRuns c threads src dst m (.ok (.ok (), s.mem))

end Ezk
