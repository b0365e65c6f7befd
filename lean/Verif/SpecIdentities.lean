import Verif.Model.Contract
import Verif.Lemmas.IeeeClass

/-!
# Specification: identities between functions
-/

namespace Nova
open FP

/-- `y` may be what `f_vec_simd` computes for one element `x`; the compiler may fuse products with sums if `c` is set. -/
def Computes (c : Bool) (b : Build32) (P : Platform 32) (op : UnOp) (x y : BitVec 32) : Prop :=
  .ok y ∈ Contract.unary c (b.ops P) (b.lane P) P.r2 P.r10 op x

end Nova
