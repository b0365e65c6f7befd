import Verif.SpecQuiet
import Verif.Lemmas.Quiet
import Verif.Props.C99_Contract

/-!
# C100 Quiet signals pass the wave shapers unchanged

`sin`, `tan`, `asin`, `atan` and `tanh` return an argument of at most `2^-12` bit for bit, whichever products and sums the
compiler fuses; `tanh` of the negative zero is the exception.  `cos` returns 1 up to `2^-13`.
-/

namespace Nova
open FP VecMath Spec

theorem quiet_map {l : List (BitVec 32)} {x : BitVec 32} (h : ∀ y ∈ l, y = x) :
    ∀ r ∈ l.map (Except.ok (ε := Fault)), r = .ok x := by
  intro r hr
  obtain ⟨y, hy, rfl⟩ := List.mem_map.mp hr
  rw [h y hy]

/-- One element, every choice of fused operations.  Missing: `tanh` of the negative zero. -/
theorem C100_shapers_partial (c : Bool) (b : Build32) (hb : b.simdMath = true) (P : Platform 32) (op : UnOp) (hop : Shaper op)
    (x : BitVec 32) (hx : Quiet x) (hz : op = .tanh → x ≠ 0x80000000#32) :
    ∀ r ∈ Contract.unary c (b.ops P) (b.lane P) P.r2 P.r10 op x, r = .ok x := by
  have h := (b.templates hb P).ieee
  cases op with
  | sin => exact quiet_map (Contract.vecSin_quiet h hx.1 hx.2)
  | tan => exact quiet_map (Contract.vecTan_quiet h hx.1 hx.2)
  | asin => exact quiet_map (Contract.vecAsin_quiet h hx.1 hx.2)
  | atan => exact quiet_map (Contract.vecAtan_quiet h hx.1 hx.2)
  | tanh =>
    refine quiet_map (Contract.vecTanh_quiet h hx.1 hx.2 fun h0 => ?_)
    by_contra hn
    refine hz rfl ?_
    have := binary32.pack_self x
    rw [binary32.units_eq_zero.mp (units_of_zero h0), eq_true_of_ne_false hn] at this
    rw [← this]; decide
  | _ => exact hop.elim

/-- One element of the uncontracted function. -/
theorem C100_element_partial (b : Build32) (hb : b.simdMath = true) (P : Platform 32) (op : UnOp) (hop : Shaper op)
    (x : BitVec 32) (hx : Quiet x) (hz : op = .tanh → x ≠ 0x80000000#32) : op.f (b.lane P) x = .ok x :=
  C100_shapers_partial false b hb P op hop x hx hz _ (C99_possible_unary false b hb P op x)

/-- `tanh` loses the sign of zero, whichever operations are fused. -/
theorem C100_negation_tanh (c : Bool) (b : Build32) (hb : b.simdMath = true) (P : Platform 32) :
    Quiet 0x80000000#32 ∧
    ∀ r ∈ Contract.unary c (b.ops P) (b.lane P) P.r2 P.r10 .tanh 0x80000000#32, r = .ok 0x00000000#32 := by
  refine ⟨⟨by decide, ?_⟩, quiet_map (Contract.vecTanh_zero (b.templates hb P).ieee)⟩
  have : binary32.toReal 0x80000000#32 = 0 := by
    unfold Fmt.toReal; rw [show binary32.units 0x80000000#32 = 0 by decide]; simp
  rw [this, abs_zero]; positivity

/-- `cos` of a quiet signal is one. -/
theorem C100_cos (c : Bool) (b : Build32) (hb : b.simdMath = true) (P : Platform 32) (x : BitVec 32)
    (hx : IsFin binary32 x) (hr : |binary32.toReal x| ≤ 1 / 2 ^ 13) :
    ∀ r ∈ Contract.unary c (b.ops P) (b.lane P) P.r2 P.r10 .cos x, r = .ok 0x3f800000#32 :=
  quiet_map (Contract.vecCos_quiet (b.templates hb P).ieee hx hr)

/-- A whole call `f_vec_simd(out, in, n)` copies a quiet signal.  `f` is what the compiled loop body computes for one
element: any function all of whose values are possible. -/
theorem C100_calls_partial (c : Bool) (b : Build32) (hb : b.simdMath = true) (P : Platform 32)
    (op : UnOp) (hop : Shaper op) {f : BitVec 32 → Except Fault (BitVec 32)}
    (hf : ∀ x, f x ∈ Contract.unary c (b.ops P) (b.lane P) P.r2 P.r10 op x)
    {m : Mem (BitVec 32)} {out inp : Nat} {n : BitVec 32} {x : Nat → BitVec 32} (hn : 0 < n.toNat)
    (hmul : b.target.perLine ∣ n.toNat) (hoal : b.target.align ∣ out) (hial : b.target.align ∣ inp)
    (hout : Allocated m out n.toNat) (hin : Holds m inp n.toNat x) (hs : SafePlacement out inp n.toNat)
    (hx : ∀ i, i < n.toNat → Quiet (x i) ∧ (op = .tanh → x i ≠ 0x80000000#32)) :
    performVecSimd1 (b.vec P) f out inp n m = .ok ((), overwrite m out n.toNat x) := by
  have hp := processed_eq b.target (b.env P) hmul
  rw [← hp]
  apply performVecSimd1_spec (b.target.lawful (b.env P)) (x := x) (perLine_le b.target (b.env P) hn hmul) hoal <;> rw [hp]
  · exact hout
  · exact ⟨hial, hin, hs⟩
  · exact fun i h => C100_shapers_partial c b hb P op hop (x i) (hx i h).1 (hx i h).2 _ (hf (x i))

/-- In place the call therefore changes nothing at all. -/
theorem C100_inplace_partial (c : Bool) (b : Build32) (hb : b.simdMath = true) (P : Platform 32)
    (op : UnOp) (hop : Shaper op) {f : BitVec 32 → Except Fault (BitVec 32)}
    (hf : ∀ x, f x ∈ Contract.unary c (b.ops P) (b.lane P) P.r2 P.r10 op x)
    {m : Mem (BitVec 32)} {buf : Nat} {n : BitVec 32} {x : Nat → BitVec 32} (hn : 0 < n.toNat)
    (hmul : b.target.perLine ∣ n.toNat) (hal : b.target.align ∣ buf) (hin : Holds m buf n.toNat x)
    (hx : ∀ i, i < n.toNat → Quiet (x i) ∧ (op = .tanh → x i ≠ 0x80000000#32)) :
    performVecSimd1 (b.vec P) f buf buf n m = .ok ((), m) := by
  rw [C100_calls_partial c b hb P op hop hf hn hmul hal hal (fun i h => by rw [hin i h]; rfl) hin (.inl le_rfl) hx]
  congr 2
  funext a
  unfold overwrite
  by_cases h : buf ≤ a ∧ a < buf + n.toNat
  · rw [if_pos h, ← hin (a - buf) (by omega), Nat.add_sub_cancel' h.1]
  · rw [if_neg h]

/-- The quiet numbers: among them the smallest subnormal number, `-2^-12` and zero. -/
example : Shaper .sin ∧ Shaper .tanh ∧ (Build32.avx true).simdMath = true ∧
    Quiet 0xb9800000#32 ∧ Quiet 0x00000001#32 ∧ Quiet 0#32 ∧ (0xb9800000#32 : BitVec 32) ≠ 0x80000000#32 := by
  have h1 : binary32.toReal 0xb9800000#32 = -(1 / 2 ^ 12) := by
    rw [isVal_value (q := -(1 / 2 ^ 12)) (by decide +kernel)]; norm_num
  have h2 : binary32.toReal 0x00000001#32 = 1 / 2 ^ 149 := by
    rw [isVal_value (q := 1 / 2 ^ 149) (by decide +kernel)]; norm_num
  refine ⟨trivial, trivial, rfl, ⟨by decide, ?_⟩, ⟨by decide, ?_⟩, ⟨by decide, ?_⟩, by decide⟩
  · rw [h1, abs_neg, abs_of_pos (by positivity)]
  · rw [h2, abs_of_pos (by positivity)]; norm_num
  · rw [val32_zero, abs_zero]; positivity

/-- Above `2^-12` the wave shapers do change their argument: `tanh` of `2^-8`. -/
example : UnOp.tanh.f ((Build32.avx true).lane platform0) 0x3b800000#32 = .ok 0x3b7fffab#32 := by decide +kernel

/-- A loop body as `hf` describes it: the uncontracted function. -/
example (c : Bool) (b : Build32) (hb : b.simdMath = true) (P : Platform 32) (op : UnOp) :
    ∀ x, op.f (b.lane P) x ∈ Contract.unary c (b.ops P) (b.lane P) P.r2 P.r10 op x := C99_possible_unary c b hb P op

end Nova
