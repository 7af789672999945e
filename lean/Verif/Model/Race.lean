import Verif.Model.GradStep

/-! # The parallel loops, with the memory accesses of their threads

The four OpenMP loops of the library: `searchCompleteDesignSpace` and `searchAroundGlobalOptima`
(optimization.cpp 721-738, 680-703), the two gradient-based searches (optimization.cpp 524-542, 578-603), and
the training of a Kriging model (kriging_training.cpp 741-777).  A thread makes one step after the other; each
step either reads and writes shared variables, or enters or leaves the critical section.  OpenMP has one lock
for all unnamed critical sections.  Objects that a thread owns, and objects that no thread writes in the loop
(the surrogate models, the bounds, the incumbent), are not shared variables here. -/

namespace Rodeo.Par

/-- What one step of a thread does to the memory shared with other threads. -/
inductive Ev (V : Type) where
  | access (reads writes : List V)
  | enter
  | leave
  deriving DecidableEq

/-- A parallel loop: the next step of a thread, with the values of the shared variables (`S`) and the place
of the thread (`T`) before and after it; `none` at the end. -/
structure Loop (S T V : Type) where
  next : S → T → Option (Ev V × S × T)

/-- The shared variables, the threads, and the thread inside the critical section. -/
structure St (S T : Type) where
  shared : S
  threads : List T
  holder : Option Nat

variable {S T V : Type}

/-- Thread number `i` makes its next step.  At the entrance of the critical section it waits while
another thread is inside. -/
def step (L : Loop S T V) (s : St S T) (i : Nat) : St S T :=
  match s.threads[i]? with
  | none => s
  | some t =>
    match L.next s.shared t with
    | none => s
    | some (.access _ _, sh, t') => ⟨sh, s.threads.set i t', s.holder⟩
    | some (.enter, sh, t') =>
      match s.holder with
      | none => ⟨sh, s.threads.set i t', some i⟩
      | some _ => s
    | some (.leave, sh, t') => ⟨sh, s.threads.set i t', none⟩

/-- A schedule: the numbers of the threads in the order in which they make their steps. -/
def run (L : Loop S T V) : St S T → List Nat → St S T
  | s, [] => s
  | s, i :: l => run L (step L s i) l

/-! ## The search for the next design -/

/-- The shared variable of the search. -/
inductive SearchVar where
  | best
  deriving DecidableEq

/-- The place of a thread in the loop body: before the comparison (outside the critical section), before,
inside and at the end of the critical section. -/
inductive SearchPc (K : Type) where
  | compare
  | entrance (c : BODesign K)
  | assign (c : BODesign K)
  | exit
  deriving DecidableEq

/-- A thread: the candidates it has still to compare, and its place. -/
structure SearchTask (K : Type) where
  todo : List (BODesign K)
  pc : SearchPc K
  deriving DecidableEq

variable {K : Type} [Field K] [LinearOrder K] [IsStrictOrderedRing K]

/-- `searchCompleteDesignSpace` and `searchAroundGlobalOptima` (optimization.cpp 729-737, 690-697); the
candidates are computed in variables of the thread. -/
def searchLoop : Loop (BODesign K) (SearchTask K) SearchVar where
  next best t :=
    match t.pc, t.todo with
    | .compare, [] => none
    | .compare, c :: cs =>
      some (.access [.best] [], best, ⟨cs, if c.value > best.value then .entrance c else .compare⟩)
    | .entrance c, cs => some (.enter, best, ⟨cs, .assign c⟩)
    | .assign c, cs => some (.access [] [.best], c, ⟨cs, .exit⟩)
    | .exit, cs => some (.leave, best, ⟨cs, .compare⟩)

/-- The state before the loop; `chunks` are the candidates of the threads. -/
def searchStart (best : BODesign K) (chunks : List (List (BODesign K))) : St (BODesign K) (SearchTask K) :=
  ⟨best, chunks.map fun c => ⟨c, .compare⟩, none⟩

/-! ## The gradient-based search -/

/-- The shared variables `designToBeTried`, `designWithMaxImprovement`, `maxEI`/`maxImprovement`. -/
inductive GradVar where
  | trial
  | best
  | top
  deriving DecidableEq

/-- The accesses of the statements of the loop body (optimization.cpp 530-541, 583-602), in the order of
`GradSearch.threadStep`. -/
def gradAccess (constrained : Bool) : GradPc K → Ev GradVar
  | .generate => .access [] [.trial]
  | .test => .access [.trial] []
  | .evaluate => .access [.trial] [.trial]
  | .compare _ => .access (if constrained then [.top] else [.trial, .top]) []
  | .record _ => .access (if constrained then [] else [.trial]) [.top]
  | .copy => .access [.trial] [.best]

/-- The gradient-based search (optimization.cpp 524-542, 578-603) with the statements of
`GradSearch.threadStep`; an exception ends the thread. -/
def gradLoop (constrained : Bool) (E : GradAcq K) (g incumbent : List K) :
    Loop (GradSearch K) (GradThread K) GradVar where
  next s t :=
    if t.pc = .generate ∧ t.todo = [] then none
    else
      match GradSearch.threadStep constrained E g incumbent s t with
      | .error _ => none
      | .ok r => some (gradAccess constrained t.pc, r.1, r.2)

/-! ## Training -/

/-- The shared variables: the random number generator of all populations, `static std::mt19937
EAPopulation::gen` (ea_population.hpp 17), and the pair `bestSolution`, `globalBestError`. -/
inductive TrainVar where
  | generator
  | best
  deriving DecidableEq

/-- The place of a thread: `draws n`: it will still draw `n` numbers from the generator
(`pickUpARandomIndividualForReproduction`, `pickUpAnIndividualThatWillDie`, ea_population.cpp 589-593,
626-630); then the critical section with the comparison and the assignment. -/
inductive TrainPc where
  | draws (n : Nat)
  | compare
  | assign
  | exit
  | done
  deriving DecidableEq

/-- A thread: its place and its result (hyperparameters and score). -/
structure TrainTask (K : Type) where
  pc : TrainPc
  result : List K × K

/-- The training loop (kriging_training.cpp 743-777).  Simplification: what a thread computes with the
numbers it draws is its own, so only the number of draws and the result are kept. -/
def trainLoop : Loop (List K × K) (TrainTask K) TrainVar where
  next best t :=
    match t.pc with
    | .draws (n + 1) => some (.access [.generator] [.generator], best, { t with pc := .draws n })
    | .draws 0 => some (.enter, best, { t with pc := .compare })
    | .compare => some (.access [.best] [], best, { t with pc := if t.result.2 < best.2 then .assign else .exit })
    | .assign => some (.access [] [.best], t.result, { t with pc := .exit })
    | .exit => some (.leave, best, { t with pc := .done })
    | .done => none

/-- The state before the loop: each thread with the number of its draws and its result. -/
def trainStart (best : List K × K) (tasks : List (Nat × List K × K)) : St (List K × K) (TrainTask K) :=
  ⟨best, tasks.map fun p => ⟨.draws p.1, p.2⟩, none⟩

/-! ## What two threads can do to the generator and to a vector

The following are finer steps: single reads and writes of words. -/

/-- The place of a thread in `mersenne_twister_engine::operator()` of libstdc++ (bits/random.tcc), called by
`dist01(gen)` in ea_population.cpp 594, 631: before `if (_M_p >= state_size)`, before `_M_gen_rand()`, before
the read of `_M_p` in `_M_x[_M_p++]`, before the write of `_M_p + 1`, before the read of `_M_x[q]`. -/
inductive DrawPc where
  | check
  | refill
  | load
  | store (q : Nat)
  | fetch (q : Nat)
  deriving DecidableEq

/-- The position `_M_p` in the table of 624 words, and the threads: draws left and place. -/
structure Twister where
  pos : Nat
  threads : List (Nat × DrawPc)
  deriving DecidableEq

/-- One step of thread `i`.  Reading a word outside the table is undefined behaviour. -/
def Twister.step (s : Twister) (i : Nat) : Res Twister :=
  match s.threads[i]? with
  | none => .ok s
  | some (0, _) => .ok s
  | some (n + 1, .check) =>
    .ok ⟨s.pos, s.threads.set i (n + 1, if s.pos ≥ 624 then .refill else .load)⟩
  | some (n + 1, .refill) => .ok ⟨0, s.threads.set i (n + 1, .load)⟩
  | some (n + 1, .load) => .ok ⟨s.pos, s.threads.set i (n + 1, .store s.pos)⟩
  | some (n + 1, .store q) => .ok ⟨q + 1, s.threads.set i (n + 1, .fetch q)⟩
  | some (n + 1, .fetch q) => if q < 624 then .ok ⟨s.pos, s.threads.set i (n, .check)⟩ else .error .ub

/-- A schedule. -/
def Twister.run : Twister → List Nat → Res Twister
  | s, [] => .ok s
  | s, i :: l =>
    match s.step i with
    | .error e => .error e
    | .ok s' => Twister.run s' l

/-- After seeding `_M_p` is 624. -/
def Twister.seeded (draws : List Nat) : Twister := ⟨624, draws.map fun n => (n, .check)⟩

/-- The place of a thread in `v = w` for vectors (vector.cpp 69-81): before `delete[] data`, before
`data = new double[..]`, at the end. -/
inductive AssignPc where
  | delete
  | allocate
  | done
  deriving DecidableEq

/-- Whether `v.data` points to memory that `v` owns, and the threads. -/
structure Assigning where
  owned : Bool
  threads : List AssignPc
  deriving DecidableEq

/-- One step of thread `i`; deleting memory twice is undefined behaviour. -/
def Assigning.step (s : Assigning) (i : Nat) : Res Assigning :=
  match s.threads[i]? with
  | some .delete => if s.owned then .ok ⟨false, s.threads.set i .allocate⟩ else .error .ub
  | some .allocate => .ok ⟨true, s.threads.set i .done⟩
  | _ => .ok s

/-- A schedule. -/
def Assigning.run : Assigning → List Nat → Res Assigning
  | s, [] => .ok s
  | s, i :: l =>
    match s.step i with
    | .error e => .error e
    | .ok s' => Assigning.run s' l

end Rodeo.Par
