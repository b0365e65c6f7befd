/-!
# Memory, faults and the execution monad

The C++ code reads and writes buffers of floating point numbers through raw pointers.
A pointer is modelled by an element address (a natural number), a memory by a partial function
from element addresses to element values.  `none` is a cell that belongs to no live
buffer.  Everything the C++ standard (or the processor) punishes is a `Fault`.
-/

namespace Nova

/-- What can go wrong.  Every constructor stands for undefined behaviour, for a processor
fault, for a failed `assert`, or for a template that cannot be instantiated. -/
inductive Fault where
  /-- access to a cell outside every live buffer -/
  | oob (addr : Nat)
  /-- an aligned vector access at an address that is not aligned (#GP on x86) -/
  | misaligned (addr : Nat)
  /-- `memcpy` on overlapping regions -/
  | overlap
  /-- an object that was never initialised is read -/
  | uninit
  /-- lane index out of range -/
  | badLane
  /-- floating point to integer conversion out of range -/
  | badConv
  /-- failed `assert` (builds without `NDEBUG`) -/
  | assertion
  /-- the template recursion on `N` does not reach its base case: the program does not compile -/
  | illFormed
deriving DecidableEq, Repr

/-- A memory: element address to element value. -/
abbrev Mem (α : Type) := Nat → Option α

/-- A program that may read and write memory, fault, or return a value. -/
def Exec (α β : Type) : Type := Mem α → Except Fault (β × Mem α)

namespace Exec
variable {α β γ : Type}

@[inline] protected def pure (b : β) : Exec α β := fun m => .ok (b, m)

@[inline] protected def bind (x : Exec α β) (f : β → Exec α γ) : Exec α γ := fun m =>
  match x m with
  | .ok (b, m') => f b m'
  | .error e => .error e

instance : Monad (Exec α) where
  pure := Exec.pure
  bind := Exec.bind

/-- Stop with a fault. -/
def fail (e : Fault) : Exec α β := fun _ => .error e

/-- Run a computation that does not touch memory. -/
def lift (x : Except Fault β) : Exec α β := fun m =>
  match x with
  | .ok b => .ok (b, m)
  | .error e => .error e

@[simp] theorem pure_run (b : β) (m : Mem α) : (pure b : Exec α β) m = .ok (b, m) := rfl

theorem bind_run (x : Exec α β) (f : β → Exec α γ) (m : Mem α) :
    (x >>= f) m = match x m with
      | .ok (b, m') => f b m'
      | .error e => .error e := rfl

theorem bind_ok {x : Exec α β} {f : β → Exec α γ} {m m' : Mem α} {b : β}
    (h : x m = .ok (b, m')) : (x >>= f) m = f b m' := by
  rw [bind_run, h]

theorem bind_error {x : Exec α β} {f : β → Exec α γ} {m : Mem α} {e : Fault}
    (h : x m = .error e) : (x >>= f) m = .error e := by
  rw [bind_run, h]

@[simp] theorem lift_ok (b : β) (m : Mem α) : (lift (.ok b) : Exec α β) m = .ok (b, m) := rfl
@[simp] theorem lift_error (e : Fault) (m : Mem α) :
    (lift (.error e) : Exec α β) m = .error e := rfl
@[simp] theorem fail_run (e : Fault) (m : Mem α) : (fail e : Exec α β) m = .error e := rfl

@[simp] theorem fail_bind (e : Fault) (f : β → Exec α γ) : (fail e >>= f) = fail e := rfl
@[simp] theorem lift_ok_bind (b : β) (f : β → Exec α γ) : (lift (.ok b) >>= f) = f b := rfl
@[simp] theorem lift_error_bind (e : Fault) (f : β → Exec α γ) :
    (lift (.error e : Except Fault β) >>= f) = fail e := rfl

instance : LawfulMonad (Exec α) := LawfulMonad.mk'
  (id_map := by
    intro β x; funext m
    show (match x m with | .ok (b, m') => _ | .error e => _) = _
    cases h : x m with
    | ok p => cases p; simp [Exec.pure]
    | error e => simp)
  (pure_bind := by intros; rfl)
  (bind_assoc := by
    intro β γ δ x f g; funext m
    simp only [bind_run]
    cases x m <;> rfl)

end Exec

section access
variable {α : Type}

/-- `*p` -/
def read (p : Nat) : Exec α α := fun m =>
  match m p with
  | some v => .ok (v, m)
  | none => .error (.oob p)

/-- `*p = v` -/
def write (p : Nat) (v : α) : Exec α Unit := fun m =>
  match m p with
  | some _ => .ok ((), fun a => if a = p then some v else m a)
  | none => .error (.oob p)

/-- A SIMD register with `w` lanes. -/
abbrev Vec (α : Type) (w : Nat) := Fin w → α

/-- All cells `p, …, p+w-1` are allocated. -/
def Mem.allocated (m : Mem α) (p w : Nat) : Prop := ∀ i : Fin w, (m (p + i)).isSome

instance (m : Mem α) (p w : Nat) : Decidable (m.allocated p w) := by
  unfold Mem.allocated; exact inferInstance

/-- Read `w` consecutive elements; faults if one of them is not allocated. -/
def readVec (w p : Nat) : Exec α (Vec α w) := fun m =>
  if h : m.allocated p w then .ok (fun i => (m (p + i)).get (h i), m) else .error (.oob p)

/-- Write `w` consecutive elements; faults if one of them is not allocated. -/
def writeVec {w : Nat} (v : Vec α w) (p : Nat) : Exec α Unit := fun m =>
  if m.allocated p w then
    .ok ((), fun a => if h : p ≤ a ∧ a < p + w then some (v ⟨a - p, by omega⟩) else m a)
  else .error (.oob p)

end access

/-! ## Loops -/
section loops
variable {α σ : Type}

/-- `k` executions of `body`. -/
def iterM (body : σ → Exec α σ) : Nat → σ → Exec α σ
  | 0, s => pure s
  | k + 1, s => body s >>= iterM body k

/-- `do { body } while (--n);` with an `unsigned int` (32 bit) counter.  `--n` wraps around. -/
def doWhile (body : σ → Exec α σ) (n : BitVec 32) (s : σ) : Exec α σ :=
  body s >>= fun s' => if n - 1 = 0 then pure s' else doWhile body (n - 1) s'
termination_by (n - 1).toNat
decreasing_by
  rename_i h
  have hn : (n - 1).toNat ≠ 0 := fun h0 => h (BitVec.eq_of_toNat_eq (by simpa using h0))
  have hlt := (n - 1).isLt
  rw [BitVec.toNat_sub (n - 1) 1]
  have h1 : (1 : BitVec 32).toNat = 1 := rfl
  rw [h1]
  omega

/-- The number of executions of the body of `do { } while (--n)`. -/
def tripCount (n : BitVec 32) : Nat := if n = 0 then 2 ^ 32 else n.toNat

/-- `for (i = 0; i != n; ++i) body` with a compile-time `n`. -/
def forLoop (body : σ → Exec α σ) (n : Nat) (s : σ) : Exec α σ := iterM body n s

end loops

end Nova
