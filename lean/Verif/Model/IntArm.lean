import Verif.Model.IntAvx
import Verif.Model.Hw

/-!
# The integer vectors of the NEON and Altivec back ends

The same registers as in `Verif/Model/IntAvx.lean`: 128 bits, four lanes.  Both classes store `unsigned` lanes.
-/

namespace Nova.IntVec

/-! ## Instructions -/

/-- `vshlq_u32`: the shift count of a lane is the signed low byte of the second operand; negative counts shift to the
right, counts of 32 and more give 0 (used in vec/vec_int_neon.hpp:91, 97). -/
def vshlLane (x count : BitVec 32) : BitVec 32 :=
  let c := (count.extractLsb' 0 8).toInt
  if 0 ≤ c then (if c.toNat > 31 then 0#32 else x <<< c.toNat)
  else if (-c).toNat > 31 then 0#32 else x >>> (-c).toNat

/-- `vec_sl`, `vec_sr`: the shift count of a lane is taken modulo 32 (used in vec/vec_int_altivec.hpp:108, 114) -/
def vslLane (x count : BitVec 32) : BitVec 32 := x <<< (count.toNat % 32)
def vsrLane (x count : BitVec 32) : BitVec 32 := x >>> (count.toNat % 32)

/-! ## `int_vec_neon` (vec/vec_int_neon.hpp) -/

/-- `int_vec_neon(int)` (vec/vec_int_neon.hpp:32-34) -/
def neonSet1 (x : BitVec 32) : BitVec 128 := pack x x x x
/-- `operator+` (vec/vec_int_neon.hpp:56-59) -/
def neonAdd := map2 (· + ·)
/-- `operator-` (vec/vec_int_neon.hpp:61-64) -/
def neonSub := map2 (· - ·)
/-- `mask_lt`, `mask_gt`, `mask_eq` (vec/vec_int_neon.hpp:66-74): `vcltq_u32`, `vcgtq_u32`, `vceqq_u32`, which compare unsigned
numbers -/
def neonLt := map2 fun a b => mask (a.ult b)
def neonGt := map2 fun a b => mask (b.ult a)
def neonEq := map2 fun a b => mask (a == b)
/-- `operator&` (vec/vec_int_neon.hpp:78-81) -/
def neonAnd (a b : BitVec 128) : BitVec 128 := a &&& b
/-- `andnot` (vec/vec_int_neon.hpp:83-86): the *second* operand is complemented -/
def neonAndnot (a b : BitVec 128) : BitVec 128 := a &&& ~~~b
/-- `slli` (vec/vec_int_neon.hpp:89-92) -/
def neonSlli (a : BitVec 128) (count : BitVec 32) : BitVec 128 := map2 vshlLane a (neonSet1 count)
/-- `srli` (vec/vec_int_neon.hpp:95-98) -/
def neonSrli (a : BitVec 128) (count : BitVec 32) : BitVec 128 := map2 vshlLane a (neonSet1 (-count))
/-- `convert_to_float` (vec/vec_int_neon.hpp:100-103): signed -/
def neonToFloat (hw : Hw 32) : BitVec 128 → BitVec 128 := map1 hw.ofInt32

/-! ## `int_vec_altivec` (vec/vec_int_altivec.hpp) -/

/-- `set_vector`, `int_vec_altivec(int)` (vec/vec_int_altivec.hpp:35-47) -/
def altiSet1 (x : BitVec 32) : BitVec 128 := pack x x x x
/-- `operator+` (vec/vec_int_altivec.hpp:73-76) -/
def altiAdd := map2 (· + ·)
/-- `operator-` (vec/vec_int_altivec.hpp:78-81) -/
def altiSub := map2 (· - ·)
/-- `mask_lt`, `mask_gt`, `mask_eq` (vec/vec_int_altivec.hpp:83-91): comparisons of `__vector unsigned int` -/
def altiLt := map2 fun a b => mask (a.ult b)
def altiGt := map2 fun a b => mask (b.ult a)
def altiEq := map2 fun a b => mask (a == b)
/-- `operator&` (vec/vec_int_altivec.hpp:95-98) -/
def altiAnd (a b : BitVec 128) : BitVec 128 := a &&& b
/-- `andnot` (vec/vec_int_altivec.hpp:100-103): `vec_andc` complements its second operand -/
def altiAndnot (a b : BitVec 128) : BitVec 128 := a &&& ~~~b
/-- `slli` (vec/vec_int_altivec.hpp:106-109) -/
def altiSlli (a : BitVec 128) (count : BitVec 32) : BitVec 128 := map2 vslLane a (altiSet1 count)
/-- `srli` (vec/vec_int_altivec.hpp:112-115) -/
def altiSrli (a : BitVec 128) (count : BitVec 32) : BitVec 128 := map2 vsrLane a (altiSet1 count)
/-- `convert_to_float` (vec/vec_int_altivec.hpp:117-120): `vec_ctf` of unsigned lanes -/
def altiToFloat (hw : Hw 32) : BitVec 128 → BitVec 128 := map1 hw.ofUInt32

/-! ## The common interface -/

/-- `int_vec_sse2::convert_to_float` (vec/vec_int_sse2.hpp:104-107) -/
def sseToFloat (hw : Hw 32) : BitVec 128 → BitVec 128 := map1 hw.ofInt32

/-- What detail/vec_math.hpp expects of `int_vec` with four lanes (detail/vec_math.hpp:38-616). -/
structure Ops where
  set1 : BitVec 32 → BitVec 128
  add : BitVec 128 → BitVec 128 → BitVec 128
  sub : BitVec 128 → BitVec 128 → BitVec 128
  lt : BitVec 128 → BitVec 128 → BitVec 128
  gt : BitVec 128 → BitVec 128 → BitVec 128
  eq : BitVec 128 → BitVec 128 → BitVec 128
  and : BitVec 128 → BitVec 128 → BitVec 128
  andnot : BitVec 128 → BitVec 128 → BitVec 128
  slli : BitVec 128 → BitVec 32 → BitVec 128
  srli : BitVec 128 → BitVec 32 → BitVec 128
  toFloat : Hw 32 → BitVec 128 → BitVec 128

/-- The three classes with four lanes (vec/vec_int_sse2.hpp, vec/vec_int_neon.hpp, vec/vec_int_altivec.hpp). -/
inductive Isa | sse2 | neon | altivec

def Isa.ops : Isa → Ops
  | .sse2 => ⟨sseSet1, sseAdd, sseSub, sseLt, sseGt, sseEq, sseAnd, sseAndnot, sseSlli, sseSrli, sseToFloat⟩
  | .neon => ⟨neonSet1, neonAdd, neonSub, neonLt, neonGt, neonEq, neonAnd, neonAndnot, neonSlli, neonSrli, neonToFloat⟩
  | .altivec => ⟨altiSet1, altiAdd, altiSub, altiLt, altiGt, altiEq, altiAnd, altiAndnot, altiSlli, altiSrli, altiToFloat⟩

end Nova.IntVec
