import Verif.Lemmas.FullScale
import Verif.Props.C99_Contract

/-!
# C64 sin and cos stay in range

Without rounding errors beyond full scale: the result is in [-1, 1], whatever the compiler fuses, for the arguments up to 8192.
-/

namespace Nova
open FP VecMath Spec

/-- `y` is a number in [-1, 1]. -/
def FullScale (y : BitVec 32) : Prop := IsFin binary32 y ∧ |binary32.toReal y| ≤ 1

/-- Missing: arguments beyond 8192, where the claim is false (`C64_negation`). -/
theorem C64_contract_partial (c : Bool) (b : Build32) (hb : b.simdMath = true) (P : Platform 32) (op : UnOp)
    (hop : op = .sin ∨ op = .cos) (x : BitVec 32) (hx : IsFin binary32 x) (hr : |binary32.toReal x| ≤ 8192) :
    ∀ r ∈ Contract.unary c (b.ops P) (b.lane P) P.r2 P.r10 op x, ∃ y, r = .ok y ∧ FullScale y := by
  intro r hm
  have h := (b.templates hb P).ieee
  rcases hop with rfl | rfl
  · exact contract_map hm fun y hy => ⟨(Contract.vecSin_track h hx hr y hy).fin, Contract.vecSin_le h hx hr y hy⟩
  · exact contract_map hm fun y hy => ⟨(Contract.vecCos_track h hx hr y hy).fin, Contract.vecCos_le h hx hr y hy⟩

/-- Without contraction.  Missing: arguments beyond 8192. -/
theorem C64_full_scale_partial (b : Build32) (hb : b.simdMath = true) (P : Platform 32) (x : BitVec 32)
    (hx : IsFin binary32 x) (hr : |binary32.toReal x| ≤ 8192) :
    FullScale ((b.lane P).sin x) ∧ FullScale ((b.lane P).cos x) := by
  constructor
  · obtain ⟨y, e, h⟩ := C64_contract_partial false b hb P .sin (.inl rfl) x hx hr _ (C99_possible_unary false b hb P .sin x)
    cases e
    exact h
  · obtain ⟨y, e, h⟩ := C64_contract_partial false b hb P .cos (.inr rfl) x hx hr _ (C99_possible_unary false b hb P .cos x)
    cases e
    exact h

/-- A whole call `sin_vec_simd(out, in, n)` or `cos_vec_simd(out, in, n)`; `f` is the compiled loop body.  Missing: buffers
with an element beyond 8192. -/
theorem C64_calls_partial (c : Bool) (b : Build32) (hb : b.simdMath = true) (P : Platform 32)
    (op : UnOp) (hop : op = .sin ∨ op = .cos) {f : BitVec 32 → Except Fault (BitVec 32)}
    (hf : ∀ x, f x ∈ Contract.unary c (b.ops P) (b.lane P) P.r2 P.r10 op x)
    {m : Mem (BitVec 32)} {out inp : Nat} {n : BitVec 32} {x : Nat → BitVec 32} (hn : 0 < n.toNat)
    (hmul : b.target.perLine ∣ n.toNat) (hoal : b.target.align ∣ out) (hial : b.target.align ∣ inp)
    (hout : Allocated m out n.toNat) (hin : Holds m inp n.toNat x) (hs : SafePlacement out inp n.toNat)
    (hx : ∀ i, i < n.toNat → IsFin binary32 (x i) ∧ |binary32.toReal (x i)| ≤ 8192) :
    ∃ y : Nat → BitVec 32, performVecSimd1 (b.vec P) f out inp n m = .ok ((), overwrite m out n.toNat y) ∧
      ∀ i, i < n.toNat → FullScale (y i) := by
  have H : ∀ i, ∃ y, i < n.toNat → f (x i) = .ok y ∧ FullScale y := fun i => by
    by_cases hi : i < n.toNat
    · obtain ⟨y, e, h⟩ := C64_contract_partial c b hb P op hop (x i) (hx i hi).1 (hx i hi).2 _ (hf (x i))
      exact ⟨y, fun _ => ⟨e, h⟩⟩
    · exact ⟨0#32, fun h => absurd h hi⟩
  choose y hy using H
  refine ⟨y, ?_, fun i h => (hy i h).2⟩
  have hp := processed_eq b.target (b.env P) hmul
  rw [← hp]
  apply performVecSimd1_spec (b.target.lawful (b.env P)) (x := x) (perLine_le b.target (b.env P) hn hmul) hoal <;> rw [hp]
  · exact hout
  · exact ⟨hial, hin, hs⟩
  · exact fun i h => (hy i h).1

/-- The cosine of 2^-10 is rounded to a number below one, that of 2^-13 to one itself. -/
example : |binary32.toReal 0x3a800000#32| ≤ 8192 ∧ IsFin binary32 0x3a800000#32 ∧
    (((Build32.avx true).lane platform0).cos 0x3a800000#32 = 0x3f7ffff8#32) ∧
    (((Build32.avx true).lane platform0).cos 0x39000000#32 = 0x3f800000#32) := by
  refine ⟨?_, by decide, by decide +kernel, by decide +kernel⟩
  rw [isVal_value (x := 0x3a800000#32) (q := 1 / 2 ^ 10) (by decide +kernel)]
  push_cast
  rw [abs_of_pos (by norm_num)]
  norm_num

end Nova
