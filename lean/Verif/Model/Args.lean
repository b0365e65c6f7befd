import Verif.Model.Vec

/-!
# Argument wrappers: `detail/wrap_arguments.hpp`, `detail/wrap_argument_vector.hpp`
-/

namespace Nova
variable {α : Type}

/-- The argument of a scalar loop: `scalar_pointer_argument`, `scalar_scalar_argument`,
`scalar_ramp_argument` (detail/wrap_arguments.hpp:32-108). -/
inductive SArg (α : Type) where
  | ptr (data : Nat)
  | scalar (data : α)
  | ramp (data slope : α)

namespace SArg

/-- `get()` (detail/wrap_arguments.hpp:44-47, 69-72, 94-97) -/
def get : SArg α → Exec α α
  | ptr data => read data
  | scalar data => pure data
  | ramp data _ => pure data

/-- `increment()` (detail/wrap_arguments.hpp:39-42, 66-67, 89-92) -/
def increment (A : Arith α) : SArg α → SArg α
  | ptr data => ptr (data + 1)
  | scalar data => scalar data
  | ramp data slope => ramp (A.add data slope) slope

end SArg

/-- The argument of a SIMD loop: `vector_pointer_argument`, `vector_scalar_argument`,
`vector_ramp_argument` (detail/wrap_argument_vector.hpp:36-117). -/
inductive VArg (α : Type) (w : Nat) where
  | ptr (data : Nat)
  | scalar (data : α)
  | ramp (data slope : Vec α w)

namespace VArg

/-- `increment()` (detail/wrap_argument_vector.hpp:43-46, 73-74, 98-101) -/
def increment (I : VecImpl α) : VArg α I.size → VArg α I.size
  | ptr data => ptr (data + I.size)
  | scalar data => scalar data
  | ramp data slope => ramp (VecImpl.zip I.lane.add data slope) slope

/-- `consume()` (detail/wrap_argument_vector.hpp:55-61, 81-84, 108-113) -/
def consume (I : VecImpl α) : VArg α I.size → Exec α (I.V × VArg α I.size)
  | ptr data => do
      let ret ← I.loadAligned data
      pure (ret, increment I (ptr data))
  | scalar data => pure (I.setVec data, scalar data)
  | ramp data slope => pure (data, increment I (ramp data slope))

end VArg

/-- `wrap_vector_arg` (detail/wrap_argument_vector.hpp:119-139) with the constructor of
`vector_ramp_argument` (lines 92-96: the increment passes through a variable of type `float`). -/
def wrapVectorArg (I : VecImpl α) : SArg α → VArg α I.size
  | .scalar data => .scalar data
  | .ptr data => .ptr data
  | .ramp data slope =>
      let r := I.setSlope data slope
      let vSlope := I.viaFloat r.2
      .ramp r.1 (I.setVec vSlope)

end Nova
