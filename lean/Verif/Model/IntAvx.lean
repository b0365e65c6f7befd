/-!
# The integer vectors of the SSE2 and AVX back ends

Registers are bit patterns: `__m128i` and `__m128` are `BitVec 128`, `__m256i` and `__m256` are `BitVec 256`; the casts
between integer and float registers do nothing.  The definitions in the section "Instructions" model instructions of the
processor; the lines of /repo that use them are cited.
-/

namespace Nova.IntVec

/-- Lane `i` of a register: bits `32 i` to `32 i + 31`. -/
def lane {w : Nat} (a : BitVec w) (i : Nat) : BitVec 32 := a.extractLsb' (32 * i) 32

/-- The 128-bit register with four given lanes (`_mm_set_epi32` in the order of memory). -/
def pack (a0 a1 a2 a3 : BitVec 32) : BitVec 128 := a3 ++ a2 ++ a1 ++ a0

/-! ## Instructions -/

/-- An SSE2 instruction on four 32-bit integers (used in vec/vec_int_sse2.hpp:57-107). -/
def map2 (f : BitVec 32 → BitVec 32 → BitVec 32) (a b : BitVec 128) : BitVec 128 :=
  pack (f (lane a 0) (lane b 0)) (f (lane a 1) (lane b 1)) (f (lane a 2) (lane b 2)) (f (lane a 3) (lane b 3))

def map1 (f : BitVec 32 → BitVec 32) (a : BitVec 128) : BitVec 128 :=
  pack (f (lane a 0)) (f (lane a 1)) (f (lane a 2)) (f (lane a 3))

/-- all ones or all zeros, the result of a comparison (vec/vec_int_sse2.hpp:67-80) -/
def mask (b : Bool) : BitVec 32 := if b then BitVec.allOnes 32 else 0#32

/-- `_mm_slli_epi32`, `_mm_srli_epi32`: counts above 31 (as unsigned numbers) give 0
(vec/vec_int_sse2.hpp:93, 100) -/
def slliLane (count x : BitVec 32) : BitVec 32 := if count.toNat > 31 then 0#32 else x <<< count.toNat
def srliLane (count x : BitVec 32) : BitVec 32 := if count.toNat > 31 then 0#32 else x >>> count.toNat

/-- `_mm256_castps256_ps128` (vec/vec_int_avx.hpp:60) -/
def low (a : BitVec 256) : BitVec 128 := a.extractLsb' 0 128
/-- `_mm256_extractf128_ps(a, 1)` (vec/vec_int_avx.hpp:61) -/
def high (a : BitVec 256) : BitVec 128 := a.extractLsb' 128 128
/-- `_mm256_castsi128_si256`, `_mm256_castps128_ps256`: the upper half is undefined (`junk`)
(vec/vec_int_avx.hpp:68, 106) -/
def widen (junk a : BitVec 128) : BitVec 256 := junk ++ a
/-- `_mm256_insertf128_si256(a, b, 1)`, `_mm256_insertf128_ps(a, b, 1)` (vec/vec_int_avx.hpp:69, 107) -/
def insertHigh (a : BitVec 256) (b : BitVec 128) : BitVec 256 := b ++ a.extractLsb' 0 128

/-! ## `int_vec_sse2` (vec/vec_int_sse2.hpp) -/

/-- `operator+` (vec/vec_int_sse2.hpp:57-60) -/
def sseAdd := map2 (· + ·)
/-- `operator-` (vec/vec_int_sse2.hpp:62-65) -/
def sseSub := map2 (· - ·)
/-- `mask_lt`, `mask_gt`, `mask_eq` (vec/vec_int_sse2.hpp:67-75): signed comparisons -/
def sseLt := map2 fun a b => mask (a.slt b)
def sseGt := map2 fun a b => mask (b.slt a)
def sseEq := map2 fun a b => mask (a == b)
/-- `operator&` (vec/vec_int_sse2.hpp:79-83) -/
def sseAnd (a b : BitVec 128) : BitVec 128 := a &&& b
/-- `andnot` (vec/vec_int_sse2.hpp:85-88) -/
def sseAndnot (a b : BitVec 128) : BitVec 128 := ~~~a &&& b
/-- `slli` (vec/vec_int_sse2.hpp:91-95) -/
def sseSlli (a : BitVec 128) (count : BitVec 32) : BitVec 128 := map1 (slliLane count) a
/-- `srli` (vec/vec_int_sse2.hpp:98-102) -/
def sseSrli (a : BitVec 128) (count : BitVec 32) : BitVec 128 := map1 (srliLane count) a
/-- `int_vec_sse2(int)` (vec/vec_int_sse2.hpp:33-35) -/
def sseSet1 (x : BitVec 32) : BitVec 128 := pack x x x x

/-! ## `int_vec_avx` (vec/vec_int_avx.hpp) -/

/-- `APPLY_SSE_FUNCTION` (vec/vec_int_avx.hpp:55-71) -/
def applySse (function : BitVec 128 → BitVec 128 → BitVec 128) (junk : BitVec 128) (lhs rhs : BitVec 256) :
    BitVec 256 :=
  let lhsLow := low lhs
  let lhsHi := high lhs
  let rhsLow := low rhs
  let rhsHi := high rhs
  let newlow := function lhsLow rhsLow
  let newhi := function lhsHi rhsHi
  let result := widen junk newlow
  insertHigh result newhi

/-- `operator+`, `operator-` (vec/vec_int_avx.hpp:73-74) -/
def avxAdd := applySse sseAdd
def avxSub := applySse sseSub
/-- `mask_lt`, `mask_gt`, `mask_eq` (vec/vec_int_avx.hpp:77-79) -/
def avxLt := applySse sseLt
def avxGt := applySse sseGt
def avxEq := applySse sseEq
/-- `operator&` (vec/vec_int_avx.hpp:83-87) -/
def avxAnd (a b : BitVec 256) : BitVec 256 := a &&& b
/-- `andnot` (vec/vec_int_avx.hpp:89-93) -/
def avxAndnot (a b : BitVec 256) : BitVec 256 := ~~~a &&& b
/-- `slli` (vec/vec_int_avx.hpp:97-109) -/
def avxSlli (junk : BitVec 128) (arg : BitVec 256) (count : BitVec 32) : BitVec 256 :=
  let newlow := sseSlli (low arg) count
  let newhi := sseSlli (high arg) count
  insertHigh (widen junk newlow) newhi
/-- `srli` (vec/vec_int_avx.hpp:112-124) -/
def avxSrli (junk : BitVec 128) (arg : BitVec 256) (count : BitVec 32) : BitVec 256 :=
  let newlow := sseSrli (low arg) count
  let newhi := sseSrli (high arg) count
  insertHigh (widen junk newlow) newhi
/-- `int_vec_avx(int)`: `_mm256_set1_epi32` (vec/vec_int_avx.hpp:36-38) -/
def avxSet1 (x : BitVec 32) : BitVec 256 := sseSet1 x ++ sseSet1 x

end Nova.IntVec
