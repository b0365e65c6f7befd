import Mathlib.Logic.Function.Basic
import Verif.Spec

/-!
# Threads that share a memory

A sequential program is a tree of accesses to single elements; the threads of a program take turns after
every access, in any order.  A vector load or store counts as one access per element, so the schedules
considered here include those in which a vector access is torn.
-/

namespace Nova.Spec
variable {α β ι : Type}

/-- A sequential program, access by access.  `e` is the fault of an access outside every live buffer. -/
inductive Prog (α β : Type) where
  | ret (b : β)
  | fail (e : Fault)
  | read (a : Nat) (e : Fault) (k : α → Prog α β)
  | write (a : Nat) (v : α) (e : Fault) (k : Prog α β)

namespace Prog

/-- What the program does if nothing interferes. -/
def run : Prog α β → Exec α β
  | ret b, m => .ok (b, m)
  | fail e, _ => .error e
  | read a e k, m =>
      match m a with
      | some v => (k v).run m
      | none => .error e
  | write a v e k, m =>
      match m a with
      | some _ => k.run fun c => if c = a then some v else m c
      | none => .error e

/-- Whatever values it reads, the program reads only cells in `R` and writes only cells in `W`. -/
def Within (R W : Nat → Prop) : Prog α β → Prop
  | ret _ => True
  | fail _ => True
  | read a _ k => R a ∧ ∀ v, (k v).Within R W
  | write a _ _ k => W a ∧ k.Within R W

end Prog

/-- `call` is made of reads of cells in `R` and writes to cells in `W`. -/
def Accesses (R W : Nat → Prop) (call : Exec α β) : Prop :=
  ∃ p : Prog α β, p.run = call ∧ p.Within R W

/-- One access of one thread. -/
inductive Step : Prog α β → Mem α → Prog α β → Mem α → Prop
  | read {a e k m v} : m a = some v → Step (.read a e k) m (k v) m
  | readFault {a e k m} : m a = none → Step (.read a e k) m (.fail e) m
  | write {a v e k m} : (m a).isSome → Step (.write a v e k) m k (fun c => if c = a then some v else m c)
  | writeFault {a v e k m} : m a = none → Step (.write a v e k) m (.fail e) m

/-- `Steps ps m T qs m'`: after some schedule of `T` accesses the threads `ps` with memory `m` have become
`qs` with memory `m'`. -/
inductive Steps [DecidableEq ι] : (ι → Prog α β) → Mem α → Nat → (ι → Prog α β) → Mem α → Prop
  | refl {ps m} : Steps ps m 0 ps m
  | step {ps m T qs m' i p m''} : Steps ps m T qs m' → Step (qs i) m' p m'' →
      Steps ps m (T + 1) (Function.update qs i p) m''

/-- No thread writes a cell that another thread reads or writes. -/
def RaceFree (R W : ι → Nat → Prop) : Prop := ∀ i j, i ≠ j → ∀ a, W i a → ¬ R j a ∧ ¬ W j a

/-- Whatever the schedule, the threads `ps` started on memory `m` run without fault and without getting
stuck until, after a fixed number `T` of accesses, all have returned: thread `i` the value `res i`, leaving
the memory `mF`. -/
def AllSchedules [DecidableEq ι] (ps : ι → Prog α β) (m : Mem α) (res : ι → β) (mF : Mem α) : Prop :=
  ∃ T, ∀ t qs m', Steps ps m t qs m' →
    t ≤ T ∧
    (t < T → ∃ i p m'', Step (qs i) m' p m'') ∧
    (t = T → (∀ i, qs i = .ret (res i)) ∧ m' = mF) ∧
    ∀ i e, qs i ≠ .fail e

end Nova.Spec
