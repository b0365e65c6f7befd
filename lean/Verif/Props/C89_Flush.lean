import Verif.Lemmas.Flush
import Verif.Props.C01_Elementwise

/-!
# C89: flushing subnormal numbers to zero

On a processor that treats subnormal operands as zeros and flushes subnormal results, the arithmetic functions store no
subnormal numbers; where no subnormal number (nor the least normal number as a result) occurs they store what they store
without the flags, and otherwise the difference stays within a few multiples of the least normal number.
-/

namespace Nova
open FP Spec

section float
variable {daz ftz : Bool} {h : Hw 32}

/-- No arithmetic function of `float` stores a subnormal number when results are flushed. -/
theorem C89_none_float (b : Build32) (hb : b ≠ .generic) (P : Platform 32) (H : Hw.Flushing binary32 daz true (b.hw P) h) :
    (∀ op x, UnCalc op = true → ∃ r, op.f (b.laneOn P h) x = .ok r ∧ ¬ binary32.Subnormal r) ∧
    (∀ op x y, BinCalc op = true → ¬ binary32.Subnormal (op.f (b.laneOn P h) x y)) ∧
    (∀ op x y z, TerCalc op = true → ¬ binary32.Subnormal (op.f (b.laneOn P h) x y z)) ∧
    (∀ (op : QuadOp) x y z u, ¬ binary32.Subnormal (op.f (b.laneOn P h) x y z u)) :=
  have O := flushOps32 b hb P H
  ⟨fun op x c => O.un_none op c x, fun op x y c => O.bin_none op c x y fun _ => div_none32 b hb P H x y,
    fun op x y z c => O.ter_none op c x y z, fun op x y z u => O.quad_none op x y z u⟩

/-- The same results as without the flags, bit for bit, where nothing subnormal (and no least normal number) occurs. -/
theorem C89_same_float (b : Build32) (hb : b ≠ .generic) (P : Platform 32) (H : Hw.Flushing binary32 daz ftz (b.hw P) h) :
    (∀ op x, UnCalc op = true → UnClear binary32 (b.lane P) op x → op.f (b.laneOn P h) x = op.f (b.lane P) x) ∧
    (∀ op x y, BinCalc op = true ∨ BinCompare op = true → (op = .over → divides b = true) →
      BinClear binary32 (b.lane P) op x y → op.f (b.laneOn P h) x y = op.f (b.lane P) x y) ∧
    (∀ op x y z, TerCalc op = true → TerClear binary32 (b.lane P) op x y z →
      op.f (b.laneOn P h) x y z = op.f (b.lane P) x y z) ∧
    (∀ (op : QuadOp) x y z u, QuadClear binary32 (b.lane P) op x y z u →
      op.f (b.laneOn P h) x y z u = op.f (b.lane P) x y z u) :=
  have O := flushOps32 b hb P H
  ⟨fun op x c => O.un_same op c x,
    fun op x y c d => O.bin_same op c x y fun e => div_flush32 b hb (d e) P H x y,
    fun op x y z c => O.ter_same op c x y z, fun op x y z u => O.quad_same op x y z u⟩

/-- Sums, differences and products of any finite numbers: the usual rounding error and a multiple of the least normal
number, about 10⁻³⁸. -/
theorem C89_error_float (b : Build32) (hb : b ≠ .generic) (P : Platform 32) (H : Hw.Flushing binary32 daz ftz (b.hw P) h)
    (x y : BitVec 32) (hx : IsFin binary32 x) (hy : IsFin binary32 y) :
    (|binary32.toReal x| + |binary32.toReal y| ≤ 2 ^ 127 →
      IsFin binary32 ((b.laneOn P h).add x y) ∧ IsFin binary32 ((b.laneOn P h).sub x y) ∧
      |binary32.toReal ((b.laneOn P h).add x y) - (binary32.toReal x + binary32.toReal y)| ≤
        |binary32.toReal x + binary32.toReal y| / 2 ^ 24 + 4 / 2 ^ 126 ∧
      |binary32.toReal ((b.laneOn P h).sub x y) - (binary32.toReal x - binary32.toReal y)| ≤
        |binary32.toReal x - binary32.toReal y| / 2 ^ 24 + 4 / 2 ^ 126) ∧
    (|binary32.toReal x * binary32.toReal y| ≤ 2 ^ 127 →
      IsFin binary32 ((b.laneOn P h).mul x y) ∧
      |binary32.toReal ((b.laneOn P h).mul x y) - binary32.toReal x * binary32.toReal y| ≤
        |binary32.toReal x * binary32.toReal y| / 2 ^ 24 + (|binary32.toReal x| + |binary32.toReal y| + 2) / 2 ^ 126) := by
  have O := flushOps32 b hb P H
  have hl := Fmt.least32
  have hu := Fmt.u32
  refine ⟨fun hr => ?_, fun hr => ?_⟩
  · obtain ⟨f1, e1⟩ := flush_add_error O.add (lane_add32 b P) hx hy hr
    obtain ⟨f2, e2⟩ := flush_sub_error O.sub (lane_sub32' b P) hx hy hr
    rw [hl, hu] at e1 e2
    exact ⟨f1, f2, e1.trans (le_of_eq (by ring)), e2.trans (le_of_eq (by ring))⟩
  · obtain ⟨f1, e1⟩ := flush_mul_error O.mul (lane_mul_near32 b P) hx hy hr
    rw [hl, hu] at e1
    exact ⟨f1, e1.trans (le_of_eq (by ring))⟩

/-- `undenormalize` and `abs` do not depend on the flags: they store the same bits. -/
theorem C89_bits_float (b : Build32) (hb : b ≠ .generic) (P : Platform 32) (H : Hw.Flushing binary32 daz ftz (b.hw P) h)
    (x : BitVec 32) :
    (b.laneOn P h).abs x = binary32.fabs x ∧
    (b.hasUndenormalize = true → (b.laneOn P h).undenormalize x = if binary32.code x < 2 ^ 23 then 0#32 else x) :=
  ⟨((flushOps32 b hb P H).abs x).trans (abs_lane32 b P x),
    fun hu => (undenormalize_flush32 b hb hu P H x).trans (undenormalize_lane32 b hu P x)⟩

/-- Comparisons, `min` and `max` take subnormal operands for zeros. -/
theorem C89_compare_float (b : Build32) (hb : b ≠ .generic) (P : Platform 32) (H : Hw.Flushing binary32 true ftz (b.hw P) h)
    (op : BinOp) (hc : BinCompare op = true) (x y : BitVec 32) :
    op.f (b.laneOn P h) x y = op.f (b.lane P) (binary32.flush x) (binary32.flush y) :=
  (flushOps32 b hb P H).compare op hc x y

end float

section double
variable {daz ftz : Bool} {h : Hw 64}

theorem C89_none_double (b : Build64) (hb : b ≠ .generic) (P : Platform 64)
    (H : Hw.Flushing binary64 daz true (P.x86 binary64) h) :
    (∀ op x, UnCalc op = true → ∃ r, op.f (b.laneOn P h) x = .ok r ∧ ¬ binary64.Subnormal r) ∧
    (∀ op x y, BinCalc op = true → ¬ binary64.Subnormal (op.f (b.laneOn P h) x y)) ∧
    (∀ op x y z, TerCalc op = true → ¬ binary64.Subnormal (op.f (b.laneOn P h) x y z)) ∧
    (∀ (op : QuadOp) x y z u, ¬ binary64.Subnormal (op.f (b.laneOn P h) x y z u)) :=
  have O := flushOps64 b hb P H
  ⟨fun op x c => O.un_none op c x, fun op x y c => O.bin_none op c x y fun _ => (div_flush64 b hb P H x y).not_subnormal,
    fun op x y z c => O.ter_none op c x y z, fun op x y z u => O.quad_none op x y z u⟩

theorem C89_same_double (b : Build64) (hb : b ≠ .generic) (P : Platform 64)
    (H : Hw.Flushing binary64 daz ftz (P.x86 binary64) h) :
    (∀ op x, UnCalc op = true → UnClear binary64 (b.lane P) op x → op.f (b.laneOn P h) x = op.f (b.lane P) x) ∧
    (∀ op x y, BinCalc op = true ∨ BinCompare op = true →
      BinClear binary64 (b.lane P) op x y → op.f (b.laneOn P h) x y = op.f (b.lane P) x y) ∧
    (∀ op x y z, TerCalc op = true → TerClear binary64 (b.lane P) op x y z →
      op.f (b.laneOn P h) x y z = op.f (b.lane P) x y z) ∧
    (∀ (op : QuadOp) x y z u, QuadClear binary64 (b.lane P) op x y z u →
      op.f (b.laneOn P h) x y z u = op.f (b.lane P) x y z u) :=
  have O := flushOps64 b hb P H
  ⟨fun op x c => O.un_same op c x, fun op x y c => O.bin_same op c x y fun _ => div_flush64 b hb P H x y,
    fun op x y z c => O.ter_same op c x y z, fun op x y z u => O.quad_same op x y z u⟩

theorem C89_error_double (b : Build64) (hb : b ≠ .generic) (P : Platform 64)
    (H : Hw.Flushing binary64 daz ftz (P.x86 binary64) h) (x y : BitVec 64) (hx : IsFin binary64 x) (hy : IsFin binary64 y) :
    (|binary64.toReal x| + |binary64.toReal y| ≤ 2 ^ 1023 →
      IsFin binary64 ((b.laneOn P h).add x y) ∧ IsFin binary64 ((b.laneOn P h).sub x y) ∧
      |binary64.toReal ((b.laneOn P h).add x y) - (binary64.toReal x + binary64.toReal y)| ≤
        |binary64.toReal x + binary64.toReal y| / 2 ^ 53 + 4 / 2 ^ 1022 ∧
      |binary64.toReal ((b.laneOn P h).sub x y) - (binary64.toReal x - binary64.toReal y)| ≤
        |binary64.toReal x - binary64.toReal y| / 2 ^ 53 + 4 / 2 ^ 1022) ∧
    (|binary64.toReal x * binary64.toReal y| ≤ 2 ^ 1023 →
      IsFin binary64 ((b.laneOn P h).mul x y) ∧
      |binary64.toReal ((b.laneOn P h).mul x y) - binary64.toReal x * binary64.toReal y| ≤
        |binary64.toReal x * binary64.toReal y| / 2 ^ 53 +
          (|binary64.toReal x| + |binary64.toReal y| + 2) / 2 ^ 1022) := by
  have O := flushOps64 b hb P H
  have M := lane_math64 b P
  have hl := Fmt.least64
  have hu := Fmt.u64
  have hb' : binary64.bias = 1023 := by decide
  refine ⟨fun hr => ?_, fun hr => ?_⟩
  · obtain ⟨f1, e1⟩ := flush_add_error O.add M.add hx hy (by rw [hb']; exact hr)
    obtain ⟨f2, e2⟩ := flush_sub_error O.sub M.sub hx hy (by rw [hb']; exact hr)
    rw [hl, hu] at e1 e2
    generalize (2 : ℝ) ^ 1022 = T at *
    exact ⟨f1, f2, e1.trans (le_of_eq (by ring)), e2.trans (le_of_eq (by ring))⟩
  · obtain ⟨f1, e1⟩ := flush_mul_error O.mul (fun x y a b c => by rw [M.mul]; exact binary64.mul_near a b c) hx hy
      (by rw [hb']; exact hr)
    rw [hl, hu] at e1
    generalize (2 : ℝ) ^ 1022 = T at *
    exact ⟨f1, e1.trans (le_of_eq (by ring))⟩

theorem C89_bits_double (b : Build64) (hb : b ≠ .generic) (P : Platform 64)
    (H : Hw.Flushing binary64 daz ftz (P.x86 binary64) h) (x : BitVec 64) :
    (b.laneOn P h).abs x = binary64.fabs x ∧
    (b.laneOn P h).undenormalize x = if binary64.code x < 2 ^ 52 then 0#64 else x :=
  ⟨((flushOps64 b hb P H).abs x).trans (abs_lane64 b P x),
    (undenormalize_flush64 b hb P H x).trans (undenormalize_lane64 b P x)⟩

theorem C89_compare_double (b : Build64) (hb : b ≠ .generic) (P : Platform 64)
    (H : Hw.Flushing binary64 true ftz (P.x86 binary64) h) (op : BinOp) (hc : BinCompare op = true) (x y : BitVec 64) :
    op.f (b.laneOn P h) x y = op.f (b.lane P) (binary64.flush x) (binary64.flush y) :=
  (flushOps64 b hb P H).compare op hc x y

end double

/-! ## Whole calls -/

/-- `f_vec_simd(out, a, b, n)` for `float` (buffers, numbers or ramps): every stored number is either normal, or zero, or an
infinity or a NaN. -/
theorem C89_binary_calls_float (bd : Build32) (hb : bd ≠ .generic) (P : Platform 32) {daz : Bool} {h : Hw 32}
    (H : Hw.Flushing binary32 daz true (bd.hw P) h) (op : BinOp) (hop : BinCalc op = true) {m : Mem (BitVec 32)} {out : Nat}
    {a b : SArg (BitVec 32)} {n : BitVec 32} {x y : Nat → BitVec 32}
    (hn : 0 < n.toNat) (hmul : bd.target.perLine ∣ n.toNat) (hoal : bd.target.align ∣ out)
    (hout : Allocated m out n.toNat)
    (ha : SimdSupplies (bd.vecOn P h) bd.target.align m out n.toNat a x)
    (hb' : SimdSupplies (bd.vecOn P h) bd.target.align m out n.toNat b y) :
    ∃ r : Nat → BitVec 32, op.vecSimd (bd.vecOn P h) out a b n m = .ok ((), overwrite m out n.toNat r) ∧
      ∀ i, ¬ binary32.Subnormal (r i) :=
  ⟨_, C02_binary_simd bd.target (bd.envOn P h) op hn hmul hoal hout ha hb',
    fun i => (C89_none_float bd hb P H).2.1 op (x i) (y i) hop⟩

/-- … with three arguments -/
theorem C89_ternary_calls_float (bd : Build32) (hb : bd ≠ .generic) (P : Platform 32) {daz : Bool} {h : Hw 32}
    (H : Hw.Flushing binary32 daz true (bd.hw P) h) (op : TerOp) (hop : TerCalc op = true) {m : Mem (BitVec 32)} {out : Nat}
    {a b c : SArg (BitVec 32)} {n : BitVec 32} {x y z : Nat → BitVec 32}
    (hn : 0 < n.toNat) (hmul : bd.target.perLine ∣ n.toNat) (hoal : bd.target.align ∣ out)
    (hout : Allocated m out n.toNat)
    (ha : SimdSupplies (bd.vecOn P h) bd.target.align m out n.toNat a x)
    (hb' : SimdSupplies (bd.vecOn P h) bd.target.align m out n.toNat b y)
    (hc : SimdSupplies (bd.vecOn P h) bd.target.align m out n.toNat c z) :
    ∃ r : Nat → BitVec 32, op.vecSimd (bd.vecOn P h) out a b c n m = .ok ((), overwrite m out n.toNat r) ∧
      ∀ i, ¬ binary32.Subnormal (r i) :=
  ⟨_, C03_ternary_simd bd.target (bd.envOn P h) op hn hmul hoal hout ha hb' hc,
    fun i => (C89_none_float bd hb P H).2.2.1 op (x i) (y i) (z i) hop⟩

/-- … with four arguments -/
theorem C89_quad_calls_float (bd : Build32) (hb : bd ≠ .generic) (P : Platform 32) {daz : Bool} {h : Hw 32}
    (H : Hw.Flushing binary32 daz true (bd.hw P) h) (op : QuadOp) {m : Mem (BitVec 32)} {out : Nat}
    {a b c d : SArg (BitVec 32)} {n : BitVec 32} {x y z u : Nat → BitVec 32}
    (hn : 0 < n.toNat) (hmul : bd.target.perLine ∣ n.toNat) (hoal : bd.target.align ∣ out)
    (hout : Allocated m out n.toNat)
    (ha : SimdSupplies (bd.vecOn P h) bd.target.align m out n.toNat a x)
    (hb' : SimdSupplies (bd.vecOn P h) bd.target.align m out n.toNat b y)
    (hc : SimdSupplies (bd.vecOn P h) bd.target.align m out n.toNat c z)
    (hd : SimdSupplies (bd.vecOn P h) bd.target.align m out n.toNat d u) :
    ∃ r : Nat → BitVec 32, op.vecSimd (bd.vecOn P h) out a b c d n m = .ok ((), overwrite m out n.toNat r) ∧
      ∀ i, ¬ binary32.Subnormal (r i) :=
  ⟨_, C04_quad_simd bd.target (bd.envOn P h) op hn hmul hoal hout ha hb' hc hd,
    fun i => (C89_none_float bd hb P H).2.2.2 op (x i) (y i) (z i) (u i)⟩

/-- Two buffers without subnormal numbers whose combinations are clear: a call leaves the same memory with any flags. -/
theorem C89_same_calls_float (bd : Build32) (hb : bd ≠ .generic) (P : Platform 32) {daz ftz : Bool} {h : Hw 32}
    (H : Hw.Flushing binary32 daz ftz (bd.hw P) h) (op : BinOp) (hop : BinCalc op = true ∨ BinCompare op = true)
    (ho : op = .over → divides bd = true) {m : Mem (BitVec 32)} {out p q : Nat} {n : BitVec 32} {x y : Nat → BitVec 32}
    (hn : 0 < n.toNat) (hmul : bd.target.perLine ∣ n.toNat) (hoal : bd.target.align ∣ out) (hpal : bd.target.align ∣ p)
    (hqal : bd.target.align ∣ q) (hout : Allocated m out n.toNat) (hp : Holds m p n.toNat x) (hq : Holds m q n.toNat y)
    (hsp : SafePlacement out p n.toNat) (hsq : SafePlacement out q n.toNat)
    (hc : ∀ i, i < n.toNat → BinClear binary32 (bd.lane P) op (x i) (y i)) :
    op.vecSimd (bd.vecOn P h) out (.ptr p) (.ptr q) n m = op.vecSimd (bd.vec P) out (.ptr p) (.ptr q) n m := by
  have e1 := C02_binary_simd bd.target (bd.envOn P h) op hn hmul hoal hout
    (a := .ptr p) (b := .ptr q) ⟨hpal, hp, hsp⟩ ⟨hqal, hq, hsq⟩
  have e2 := C02_binary_simd bd.target (bd.env P) op hn hmul hoal hout
    (a := .ptr p) (b := .ptr q) ⟨hpal, hp, hsp⟩ ⟨hqal, hq, hsq⟩
  have e : overwrite m out n.toNat (fun i => op.f (bd.envOn P h).L (x i) (y i)) =
      overwrite m out n.toNat (fun i => op.f (bd.env P).L (x i) (y i)) :=
    overwrite_congr fun i hi => (C89_same_float bd hb P H).2.1 op (x i) (y i) hop ho (hc i hi)
  rw [e] at e1
  exact e1.trans e2.symm

/-! ## What the flags do change -/

/-- Half the least normal number and itself: the vector classes give zero if operands are flushed, the scalar functions
and the classes without flags the least normal number. -/
theorem C89_negation_sum (b : Build32) (hb : b ≠ .generic) (P : Platform 32) {ftz : Bool} {h : Hw 32}
    (H : Hw.Flushing binary32 true ftz (b.hw P) h) :
    (b.laneOn P h).add 0x00400000#32 0x00400000#32 = 0#32 ∧ (b.lane P).add 0x00400000#32 0x00400000#32 = 0x00800000#32 ∧
    (Build32.scalar P).add 0x00400000#32 0x00400000#32 = 0x00800000#32 := by
  have O := flushOps32 b hb P H
  have e0 : binary32.operand true 0x00400000#32 = 0#32 := by decide +kernel
  have e1 : binary32.add 0x00400000#32 0x00400000#32 = 0x00800000#32 := by decide +kernel
  refine ⟨?_, ?_, e1⟩
  · have := O.add 0x00400000#32 0x00400000#32
    rw [e0, lane_add32, show binary32.add 0#32 0#32 = 0#32 by decide +kernel] at this
    exact this.clear (.inl (by decide +kernel))
  · rw [lane_add32]; exact e1

/-- 2⁻¹²⁷ times 2¹²⁷ is 0 rather than 1: the error of a product is not small for large factors. -/
theorem C89_negation_product (b : Build32) (hb : b ≠ .generic) (hm : multiplies b = true) (P : Platform 32) {ftz : Bool}
    {h : Hw 32} (H : Hw.Flushing binary32 true ftz (b.hw P) h) :
    (b.laneOn P h).mul 0x00400000#32 0x7f000000#32 = 0#32 ∧ (b.lane P).mul 0x00400000#32 0x7f000000#32 = 0x3f800000#32 := by
  have O := flushOps32 b hb P H
  refine ⟨?_, ?_⟩
  · have := O.mul 0x00400000#32 0x7f000000#32
    rw [show binary32.operand true 0x00400000#32 = 0#32 by decide +kernel,
      show binary32.operand true 0x7f000000#32 = 0x7f000000#32 by decide +kernel, lane_mul32' b hm,
      show binary32.mul 0#32 0x7f000000#32 = 0#32 by decide +kernel] at this
    exact this.clear (.inl (by decide +kernel))
  · rw [lane_mul32' b hm]; decide +kernel

/-- A positive number that `equal` takes for zero and `greater` does not take for positive. -/
theorem C89_negation_compare (b : Build32) (hb : b ≠ .generic) (P : Platform 32) {ftz : Bool} {h : Hw 32}
    (H : Hw.Flushing binary32 true ftz (b.hw P) h) :
    (b.laneOn P h).eq 0x00400000#32 0#32 = (b.lane P).eq 0#32 0#32 ∧
    (b.laneOn P h).gt 0x00400000#32 0#32 = (b.lane P).gt 0#32 0#32 ∧
    (b.laneOn P h).max_ 0x00400000#32 0#32 = (b.lane P).max_ 0#32 0#32 := by
  have e0 : binary32.flush 0x00400000#32 = 0#32 := by decide +kernel
  have e1 : binary32.flush 0#32 = 0#32 := by decide +kernel
  have c := fun op hc => C89_compare_float b hb P H op hc 0x00400000#32 0#32
  rw [e0, e1] at c
  exact ⟨c .equal rfl, c .greater rfl, c .max rfl⟩

/-! ## Examples -/

/-- The hypotheses can be met: x86 with both flags. -/
example (P : Platform 32) : Hw.Flushing binary32 true true ((Build32.avx false).hw P) (Hw.flushed binary32 (P.x86 binary32)) :=
  Hw.flushed_flushing binary32 _

example (P : Platform 32) : Hw.Flushing binary32 true true (Build32.neon.hw P) (Hw.flushed binary32 (P.arm binary32)) :=
  Hw.flushed_flushing binary32 _

/-- 1 + 2 and 1 · 2 are clear. -/
example (P : Platform 32) : BinClear binary32 (Build32.neon.lane P) .plus 0x3f800000#32 0x40000000#32 :=
  ⟨.inr (by decide), .inr (by decide), fun _ => .inr (by
    change 2 ^ binary32.mb < binary32.code (binary32.add 0x3f800000#32 0x40000000#32)
    decide +kernel)⟩

/-- With both flags 2⁻¹²⁶ · ½ is flushed. -/
example (P : Platform 32) :
    ((Build32.avx false).laneOn P (Hw.flushed binary32 (P.x86 binary32))).mul 0x00800000#32 0x3f000000#32 = 0#32 := by
  change binary32.flush (binary32.mul (binary32.flush 0x00800000#32) (binary32.flush 0x3f000000#32)) = 0#32
  decide +kernel

end Nova
