import Verif.Lemmas.RootScale
import Verif.Props.C97_Scale

/-!
# C97 Changing levels by powers of two: signed square roots

A signal scaled by `4^k` has signed square roots scaled by `2^k`, exactly.  Nothing has to be excluded: square roots of finite
numbers are finite and never in the range of the subnormal numbers.  NEON multiplies by an estimate and is excluded.
-/

namespace Nova
open FP Spec VecMath

/-- One element of `signed_sqrt` of `float`. -/
theorem C97_root_float (b : Build32) (hb : b ≠ .neon) (P : Platform 32) {k : ℤ} {x x' : BitVec 32}
    (hx : ScaledBy binary32 (2 * k) x x') :
    ∃ r s, UnOp.signedSqrt.f (b.lane P) x = .ok r ∧ UnOp.signedSqrt.f (b.lane P) x' = .ok s ∧ ScaledBy binary32 k r s := by
  have he : b.exactSqrt = true := by cases b <;> first | rfl | exact absurd rfl hb
  refine ⟨_, _, rfl, rfl, ?_⟩
  rw [signedSqrt_lane32 b he P hx.fin.1, signedSqrt_lane32 b he P hx.fin.2]
  exact signedSqrt_scaled Fmt.wide32 (by decide) hx

theorem C97_root_double (b : Build64) (P : Platform 64) {k : ℤ} {x x' : BitVec 64} (hx : ScaledBy binary64 (2 * k) x x') :
    ∃ r s, UnOp.signedSqrt.f (b.lane P) x = .ok r ∧ UnOp.signedSqrt.f (b.lane P) x' = .ok s ∧ ScaledBy binary64 k r s := by
  refine ⟨_, _, rfl, rfl, ?_⟩
  rw [signedSqrt_lane64 b P hx.fin.1, signedSqrt_lane64 b P hx.fin.2]
  exact signedSqrt_scaled Fmt.wide64 (by decide) hx

/-- `signed_sqrt_vec_simd(out, in, n)` for `float`. -/
theorem C97_root_calls_float (b : Build32) (hb : b ≠ .neon) (P : Platform 32)
    {m m' : Mem (BitVec 32)} {out inp : Nat} {n : BitVec 32} {x x' : Nat → BitVec 32} {k : ℤ} (hn : 0 < n.toNat)
    (hmul : b.target.perLine ∣ n.toNat) (hoal : b.target.align ∣ out) (hial : b.target.align ∣ inp)
    (hout : Allocated m out n.toNat) (hout' : Allocated m' out n.toNat) (hin : Holds m inp n.toNat x)
    (hin' : Holds m' inp n.toNat x') (hs : SafePlacement out inp n.toNat)
    (hx : ∀ i, i < n.toNat → ScaledBy binary32 (2 * k) (x i) (x' i)) :
    ∃ y z : Nat → BitVec 32, UnOp.signedSqrt.vecSimd (b.vec P) out inp n m = .ok ((), overwrite m out n.toNat y) ∧
      UnOp.signedSqrt.vecSimd (b.vec P) out inp n m' = .ok ((), overwrite m' out n.toNat z) ∧
      ∀ i, i < n.toNat → ScaledBy binary32 k (y i) (z i) :=
  ordered_unary b.target (b.env P) .signedSqrt hn hmul hoal hial hout hout' hin hin' hs fun i hi => C97_root_float b hb P (hx i hi)

/-- `signed_sqrt_vec(out, in, n)` for `float`, on every platform. -/
theorem C97_root_scalar_float (P : Platform 32)
    {m m' : Mem (BitVec 32)} {out inp : Nat} {n : BitVec 32} {x x' : Nat → BitVec 32} {k : ℤ} (hn : 0 < n.toNat)
    (hout : Allocated m out n.toNat) (hout' : Allocated m' out n.toNat) (hin : Holds m inp n.toNat x)
    (hin' : Holds m' inp n.toNat x') (hs : SafePlacement out inp n.toNat)
    (hx : ∀ i, i < n.toNat → ScaledBy binary32 (2 * k) (x i) (x' i)) :
    ∃ y z : Nat → BitVec 32, UnOp.signedSqrt.vec (Build32.scalar P) out inp n m = .ok ((), overwrite m out n.toNat y) ∧
      UnOp.signedSqrt.vec (Build32.scalar P) out inp n m' = .ok ((), overwrite m' out n.toNat z) ∧
      ∀ i, i < n.toNat → ScaledBy binary32 k (y i) (z i) :=
  ordered_unary_scalar (Build32.scalar P) .signedSqrt hn hout hout' hin hin' hs fun i hi =>
    C97_root_float .generic (by decide) P (hx i hi)

/-- `signed_sqrt_vec_simd(out, in, n)` for `double`. -/
theorem C97_root_calls_double (b : Build64) (P : Platform 64)
    {m m' : Mem (BitVec 64)} {out inp : Nat} {n : BitVec 32} {x x' : Nat → BitVec 64} {k : ℤ} (hn : 0 < n.toNat)
    (hmul : b.target.perLine ∣ n.toNat) (hoal : b.target.align ∣ out) (hial : b.target.align ∣ inp)
    (hout : Allocated m out n.toNat) (hout' : Allocated m' out n.toNat) (hin : Holds m inp n.toNat x)
    (hin' : Holds m' inp n.toNat x') (hs : SafePlacement out inp n.toNat)
    (hx : ∀ i, i < n.toNat → ScaledBy binary64 (2 * k) (x i) (x' i)) :
    ∃ y z : Nat → BitVec 64, UnOp.signedSqrt.vecSimd (b.vec P) out inp n m = .ok ((), overwrite m out n.toNat y) ∧
      UnOp.signedSqrt.vecSimd (b.vec P) out inp n m' = .ok ((), overwrite m' out n.toNat z) ∧
      ∀ i, i < n.toNat → ScaledBy binary64 k (y i) (z i) :=
  ordered_unary b.target (b.env P) .signedSqrt hn hmul hoal hial hout hout' hin hin' hs fun i hi => C97_root_double b P (hx i hi)

/-- A factor that is no power of four does not scale the square root by a power of two: 1 and 2. -/
theorem C97_root_two (b : Build32) (hb : b ≠ .neon) (P : Platform 32) :
    ScaledBy binary32 1 0x3f800000#32 0x40000000#32 ∧
    ∃ r s, UnOp.signedSqrt.f (b.lane P) 0x3f800000#32 = .ok r ∧ UnOp.signedSqrt.f (b.lane P) 0x40000000#32 = .ok s ∧
      ¬ ∃ k : ℤ, ScaledBy binary32 k r s := by
  obtain ⟨fx, vx⟩ := val32 (x := 0x3f800000#32) 1 (by decide +kernel)
  obtain ⟨fy, vy⟩ := val32 (x := 0x40000000#32) 2 (by decide +kernel)
  have he : b.exactSqrt = true := by cases b <;> first | rfl | exact absurd rfl hb
  refine ⟨⟨fx, fy, by rw [vx, vy]; norm_num⟩, _, _, rfl, rfl, ?_⟩
  rw [signedSqrt_lane32 b he P (by decide), signedSqrt_lane32 b he P (by decide),
    show signedSqrtResult binary32 0x3f800000#32 = 0x3f800000#32 by decide +kernel,
    show signedSqrtResult binary32 0x40000000#32 = 0x3fb504f3#32 by decide +kernel]
  obtain ⟨-, vr⟩ := val32 (x := 0x3fb504f3#32) (11863283 / 8388608) (by decide +kernel)
  rintro ⟨k, -, -, h⟩
  rw [vx, vr] at h
  push_cast at h
  rw [one_mul] at h
  have h1 : (2 : ℝ) ^ (0 : ℤ) < 2 ^ k := by rw [← h]; norm_num
  have h2 : (2 : ℝ) ^ k < 2 ^ (1 : ℤ) := by rw [← h]; norm_num
  have a := (zpow_lt_zpow_iff_right₀ (by norm_num : (1 : ℝ) < 2)).mp h1
  have c := (zpow_lt_zpow_iff_right₀ (by norm_num : (1 : ℝ) < 2)).mp h2
  omega

/-- -2 and -8: the roots are -1.4142135 and twice that. -/
example (P : Platform 32) : ∃ r s, UnOp.signedSqrt.f ((Build32.avx true).lane P) 0xc0000000#32 = .ok r ∧
    UnOp.signedSqrt.f ((Build32.avx true).lane P) 0xc1000000#32 = .ok s ∧ ScaledBy binary32 1 r s := by
  obtain ⟨fx, vx⟩ := val32 (x := 0xc0000000#32) (-2) (by decide +kernel)
  obtain ⟨fy, vy⟩ := val32 (x := 0xc1000000#32) (-8) (by decide +kernel)
  exact C97_root_float (.avx true) (by decide) P ⟨fx, fy, by rw [vx, vy]; norm_num⟩

/-- Sixteen threes and sixteen twelves, in place. -/
example (P : Platform 32) :
    ∃ y z : Nat → BitVec 32, UnOp.signedSqrt.vecSimd ((Build32.avx true).vec P) 0 0 16#32
        (fun i => if i < 16 then some 0x40400000#32 else none) = .ok ((), overwrite (fun i => if i < 16 then some 0x40400000#32 else none) 0 16 y) ∧
      UnOp.signedSqrt.vecSimd ((Build32.avx true).vec P) 0 0 16#32
        (fun i => if i < 16 then some 0x41400000#32 else none) = .ok ((), overwrite (fun i => if i < 16 then some 0x41400000#32 else none) 0 16 z) ∧
      ∀ t, t < 16 → ScaledBy binary32 1 (y t) (z t) := by
  obtain ⟨fx, vx⟩ := val32 (x := 0x40400000#32) 3 (by decide +kernel)
  obtain ⟨fy, vy⟩ := val32 (x := 0x41400000#32) 12 (by decide +kernel)
  exact C97_root_calls_float (.avx true) (by decide) P (n := 16#32) (x := fun _ => 0x40400000#32) (x' := fun _ => 0x41400000#32)
    (by decide) (by decide) (by decide) (by decide) (fun i h => by simp_all) (fun i h => by simp_all) (fun i h => by simp_all)
    (fun i h => by simp_all) (.inl (by decide)) (fun i _ => ⟨fx, fy, by rw [vx, vy]; norm_num⟩)

end Nova
