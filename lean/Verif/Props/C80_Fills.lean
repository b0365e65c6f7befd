import Verif.Lemmas.FloatFills
import Verif.SpecSums

/-!
# C80  Rounding error of `set_slope_vec` and `set_exp_vec`
-/

namespace Nova
open FP Spec

variable {w : Nat} {F : Fmt w} {E : Env (BitVec w)}

theorem isRamp_of_acc {d i : ℕ} {f c : ℝ} {r : BitVec w} (h : FP.Acc F d (f + i * c) (|f| + i * |c|) 0 r) :
    IsRamp F d f c i 0 r := ⟨h.fin, h.tol⟩

theorem isExp_of_prd {i : ℕ} {f c : ℝ} {r : BitVec w} (h : Prd F i (f * c ^ i) r) : IsExp F f c i r := ⟨h.fin, h.tol⟩

theorem rmpOk_of {d n : ℕ} {f c : ℝ} (h : RampOk F d f c n 0) : RmpOk F f c n d := by
  unfold RampOk at h; rwa [add_zero] at h

/-! ## `set_slope_vec` -/

theorem slope_scalar (hE : Adds F E) {m : Mem (BitVec w)} {dest : Nat} {f slope : BitVec w} {n : BitVec 32}
    (hn : 0 < n.toNat) (hout : Allocated m dest n.toNat) (hf : IsFin F f) (hs : IsFin F slope)
    (hr : RampOk F n.toNat (F.toReal f) (F.toReal slope) n.toNat 0) :
    ∃ y, setSlopeVec E dest f slope n m = .ok ((), overwrite m dest n.toNat y) ∧
      ∀ i < n.toNat, IsRamp F i (F.toReal f) (F.toReal slope) i 0 (y i) := by
  refine ⟨_, setSlopeVec_run E hn hout, fun i hi => isRamp_of_acc ?_⟩
  rw [iterSeq_add]
  have := scalarRamp_acc hE hf hs i ((rmpOk_of hr).mono hi.le hi.le)
  unfold Rmp at this
  rwa [Nat.cast_one, one_mul, one_mul] at this

theorem slope_simd (t : Target) (hE : Adds F E) (h8 : MulSize F E t.size) {m : Mem (BitVec w)} {dest : Nat}
    {f slope : BitVec w} {n : BitVec 32} (hn : 0 < n.toNat) (hmul : t.perLine ∣ n.toNat) (hal : t.align ∣ dest)
    (hout : Allocated m dest n.toNat) (hf : IsFin F f) (hs : IsFin F slope)
    (hr : RampOk F (t.size + n.toNat / t.size) (F.toReal f) (F.toReal slope) n.toNat 0) :
    ∃ y, setSlopeVecSimd E (t.vec E) dest f slope n m = .ok ((), overwrite m dest n.toNat y) ∧
      ∀ i < n.toNat, IsRamp F (t.size + i / t.size) (F.toReal f) (F.toReal slope) i 0 (y i) :=
  ⟨_, setSlopeVecSimd_run t E hn hmul hal hout, fun _ hi => isRamp_of_acc (slopeElem t hE h8 hf hs
    ((rmpOk_of hr).mono hi.le (Nat.add_le_add_left (Nat.div_le_div_right hi.le) _)))⟩

/-- `set_slope_vec(dest, f, slope, n)` of `float`s: element `i` is `f + i * slope` with `i` rounding errors. -/
theorem C80_slope_float (b : Build32) (P : Platform 32) {m : Mem (BitVec 32)} {dest : Nat} {f slope : BitVec 32}
    {n : BitVec 32} (hn : 0 < n.toNat) (hout : Allocated m dest n.toNat) (hf : IsFin binary32 f)
    (hs : IsFin binary32 slope) (hr : RampOk binary32 n.toNat (binary32.toReal f) (binary32.toReal slope) n.toNat 0) :
    ∃ y, setSlopeVec (b.env P) dest f slope n m = .ok ((), overwrite m dest n.toNat y) ∧
      ∀ i < n.toNat, IsRamp binary32 i (binary32.toReal f) (binary32.toReal slope) i 0 (y i) :=
  slope_scalar (b.adds P) hn hout hf hs hr

/-- `set_slope_vec` of `double`s. -/
theorem C80_slope_double (b : Build64) (P : Platform 64) {m : Mem (BitVec 64)} {dest : Nat} {f slope : BitVec 64}
    {n : BitVec 32} (hn : 0 < n.toNat) (hout : Allocated m dest n.toNat) (hf : IsFin binary64 f)
    (hs : IsFin binary64 slope) (hr : RampOk binary64 n.toNat (binary64.toReal f) (binary64.toReal slope) n.toNat 0) :
    ∃ y, setSlopeVec (b.env P) dest f slope n m = .ok ((), overwrite m dest n.toNat y) ∧
      ∀ i < n.toNat, IsRamp binary64 i (binary64.toReal f) (binary64.toReal slope) i 0 (y i) :=
  slope_scalar (b.adds P) hn hout hf hs hr

/-- `set_slope_vec_simd` of `float`s: element `i` has at most `size + i / size` rounding errors. -/
theorem C80_slope_simd_float (b : Build32) (P : Platform 32) {m : Mem (BitVec 32)} {dest : Nat} {f slope : BitVec 32}
    {n : BitVec 32} (hn : 0 < n.toNat) (hmul : b.target.perLine ∣ n.toNat) (hal : b.target.align ∣ dest)
    (hout : Allocated m dest n.toNat) (hf : IsFin binary32 f) (hs : IsFin binary32 slope)
    (hr : RampOk binary32 (b.target.size + n.toNat / b.target.size) (binary32.toReal f) (binary32.toReal slope) n.toNat 0) :
    ∃ y, setSlopeVecSimd (b.env P) (b.vec P) dest f slope n m = .ok ((), overwrite m dest n.toNat y) ∧
      ∀ i < n.toNat,
        IsRamp binary32 (b.target.size + i / b.target.size) (binary32.toReal f) (binary32.toReal slope) i 0 (y i) :=
  slope_simd b.target (b.adds P) (b.mulSize P) hn hmul hal hout hf hs hr

/-- `set_slope_vec_simd` of `double`s.  Unlike a ramp argument (C14, C79), it does not convert the increment to `float`. -/
theorem C80_slope_simd_double (b : Build64) (P : Platform 64) {m : Mem (BitVec 64)} {dest : Nat} {f slope : BitVec 64}
    {n : BitVec 32} (hn : 0 < n.toNat) (hmul : b.target.perLine ∣ n.toNat) (hal : b.target.align ∣ dest)
    (hout : Allocated m dest n.toNat) (hf : IsFin binary64 f) (hs : IsFin binary64 slope)
    (hr : RampOk binary64 (b.target.size + n.toNat / b.target.size) (binary64.toReal f) (binary64.toReal slope) n.toNat 0) :
    ∃ y, setSlopeVecSimd (b.env P) (b.vec P) dest f slope n m = .ok ((), overwrite m dest n.toNat y) ∧
      ∀ i < n.toNat,
        IsRamp binary64 (b.target.size + i / b.target.size) (binary64.toReal f) (binary64.toReal slope) i 0 (y i) :=
  slope_simd b.target (b.adds P) (b.mulSize P) hn hmul hal hout hf hs hr

/-! ## `set_exp_vec` -/

theorem exp_normal {f c : ℝ} {n i k : ℕ} (h0 : IsNormal F n f) (h1 : IsNormal F n (f * c ^ (n - 1))) (hi : i < n) (hk : k ≤ i) :
    Normal F i (f * c ^ k) := by
  have h0' : Normal F n (f * c ^ 0) := by rw [pow_zero, mul_one]; exact h0
  exact (h0'.pow (show Normal F n _ from h1) (Nat.zero_le k) (by omega)).mono hi.le

theorem pow_normal {c : ℝ} {s k : ℕ} (h0 : IsNormal F s c) (h1 : IsNormal F s (c ^ s)) (h : 1 ≤ k) (hk : k ≤ s) :
    Normal F s (c ^ k) := by
  have h0' : Normal F s (1 * c ^ 1) := by rw [pow_one, one_mul]; exact h0
  have h1' : Normal F s (1 * c ^ s) := by rw [one_mul]; exact h1
  have := h0'.pow h1' h hk
  rwa [one_mul] at this

theorem exp_scalar (hE : Muls F E) {m : Mem (BitVec w)} {dest : Nat} {f curve : BitVec w} {n : BitVec 32}
    (hn : 0 < n.toNat) (hout : Allocated m dest n.toNat) (hf : IsFin F f) (hc : IsFin F curve)
    (h0 : IsNormal F n.toNat (F.toReal f)) (h1 : IsNormal F n.toNat (F.toReal f * F.toReal curve ^ (n.toNat - 1))) :
    ∃ y, setExpVec E dest f curve n m = .ok ((), overwrite m dest n.toNat y) ∧
      ∀ i < n.toNat, IsExp F (F.toReal f) (F.toReal curve) i (y i) :=
  ⟨_, setExpVec_run E hn hout, fun i hi => isExp_of_prd
    (expChain hE hf hc (N := i) (fun _ hk => exp_normal h0 h1 hi hk) i (by omega) (.inr le_rfl))⟩

theorem exp_simd (t : Target) (hE : Muls F E) {m : Mem (BitVec w)} {dest : Nat} {f curve : BitVec w} {n : BitVec 32}
    (hn : 0 < n.toNat) (hmul : t.perLine ∣ n.toNat) (hal : t.align ∣ dest) (hout : Allocated m dest n.toNat)
    (hf : IsFin F f) (hc : IsFin F curve) (h0 : IsNormal F n.toNat (F.toReal f))
    (h1 : IsNormal F n.toNat (F.toReal f * F.toReal curve ^ (n.toNat - 1))) (h2 : IsNormal F t.size (F.toReal curve))
    (h3 : IsNormal F t.size (F.toReal curve ^ t.size)) :
    ∃ y, setExpVecSimd E (t.vec E) dest f curve n m = .ok ((), overwrite m dest n.toNat y) ∧
      ∀ i < n.toNat, IsExp F (F.toReal f) (F.toReal curve) i (y i) :=
  ⟨_, setExpVecSimd_run t E hn hmul hal hout, fun _ hi => isExp_of_prd
    (expElem t hE hf hc (fun _ hk => exp_normal h0 h1 hi hk) fun _ h hk => pow_normal h2 h3 h hk)⟩

/-- `set_exp_vec(dest, f, curve, n)` of `float`s: element `i` is `f * curve ^ i` with `i` rounding errors, provided that
the first and the last element are normal numbers. -/
theorem C80_exp_float (b : Build32) (P : Platform 32) {m : Mem (BitVec 32)} {dest : Nat} {f curve : BitVec 32}
    {n : BitVec 32} (hn : 0 < n.toNat) (hout : Allocated m dest n.toNat) (hf : IsFin binary32 f) (hc : IsFin binary32 curve)
    (h0 : IsNormal binary32 n.toNat (binary32.toReal f))
    (h1 : IsNormal binary32 n.toNat (binary32.toReal f * binary32.toReal curve ^ (n.toNat - 1))) :
    ∃ y, setExpVec (b.env P) dest f curve n m = .ok ((), overwrite m dest n.toNat y) ∧
      ∀ i < n.toNat, IsExp binary32 (binary32.toReal f) (binary32.toReal curve) i (y i) :=
  exp_scalar (b.muls P) hn hout hf hc h0 h1

/-- `set_exp_vec` of `double`s. -/
theorem C80_exp_double (b : Build64) (P : Platform 64) {m : Mem (BitVec 64)} {dest : Nat} {f curve : BitVec 64}
    {n : BitVec 32} (hn : 0 < n.toNat) (hout : Allocated m dest n.toNat) (hf : IsFin binary64 f) (hc : IsFin binary64 curve)
    (h0 : IsNormal binary64 n.toNat (binary64.toReal f))
    (h1 : IsNormal binary64 n.toNat (binary64.toReal f * binary64.toReal curve ^ (n.toNat - 1))) :
    ∃ y, setExpVec (b.env P) dest f curve n m = .ok ((), overwrite m dest n.toNat y) ∧
      ∀ i < n.toNat, IsExp binary64 (binary64.toReal f) (binary64.toReal curve) i (y i) :=
  exp_scalar (b.muls P) hn hout hf hc h0 h1

/-- `set_exp_vec_simd` of `float`s: the same error bound as `set_exp_vec`, provided that `curve` and `curve ^ size` are
normal numbers. -/
theorem C80_exp_simd_float (b : Build32) (P : Platform 32) {m : Mem (BitVec 32)} {dest : Nat} {f curve : BitVec 32}
    {n : BitVec 32} (hn : 0 < n.toNat) (hmul : b.target.perLine ∣ n.toNat) (hal : b.target.align ∣ dest)
    (hout : Allocated m dest n.toNat) (hf : IsFin binary32 f) (hc : IsFin binary32 curve)
    (h0 : IsNormal binary32 n.toNat (binary32.toReal f))
    (h1 : IsNormal binary32 n.toNat (binary32.toReal f * binary32.toReal curve ^ (n.toNat - 1)))
    (h2 : IsNormal binary32 b.target.size (binary32.toReal curve))
    (h3 : IsNormal binary32 b.target.size (binary32.toReal curve ^ b.target.size)) :
    ∃ y, setExpVecSimd (b.env P) (b.vec P) dest f curve n m = .ok ((), overwrite m dest n.toNat y) ∧
      ∀ i < n.toNat, IsExp binary32 (binary32.toReal f) (binary32.toReal curve) i (y i) :=
  exp_simd b.target (b.muls P) hn hmul hal hout hf hc h0 h1 h2 h3

/-- `set_exp_vec_simd` of `double`s. -/
theorem C80_exp_simd_double (b : Build64) (P : Platform 64) {m : Mem (BitVec 64)} {dest : Nat} {f curve : BitVec 64}
    {n : BitVec 32} (hn : 0 < n.toNat) (hmul : b.target.perLine ∣ n.toNat) (hal : b.target.align ∣ dest)
    (hout : Allocated m dest n.toNat) (hf : IsFin binary64 f) (hc : IsFin binary64 curve)
    (h0 : IsNormal binary64 n.toNat (binary64.toReal f))
    (h1 : IsNormal binary64 n.toNat (binary64.toReal f * binary64.toReal curve ^ (n.toNat - 1)))
    (h2 : IsNormal binary64 b.target.size (binary64.toReal curve))
    (h3 : IsNormal binary64 b.target.size (binary64.toReal curve ^ b.target.size)) :
    ∃ y, setExpVecSimd (b.env P) (b.vec P) dest f curve n m = .ok ((), overwrite m dest n.toNat y) ∧
      ∀ i < n.toNat, IsExp binary64 (binary64.toReal f) (binary64.toReal curve) i (y i) :=
  exp_simd b.target (b.muls P) hn hmul hal hout hf hc h0 h1 h2 h3

/-! ## The difference between the two versions -/

/-- Where both theorems apply, `set_exp_vec_simd` and `set_exp_vec` differ at element `i` by at most twice the
tolerance. -/
theorem C80_exp_close {f c : ℝ} {i : ℕ} {r s : BitVec w} (hr : IsExp F f c i r) (hs : IsExp F f c i s) :
    |F.toReal r - F.toReal s| ≤ 2 * ((1 + F.u) ^ i - 1) * |f * c ^ i| := by
  have := abs_sub_le (F.toReal r) (f * c ^ i) (F.toReal s)
  rw [abs_sub_comm (f * c ^ i)] at this
  linarith [hr.2, hs.2]

/-! ## The hypotheses can be met -/

/-- Sixteen elements from 1.0, halved each time, on SSE2. -/
example (P : Platform 32) :
    ∃ y, setExpVecSimd ((Build32.sse false ⟨true, false, false⟩).env P) ((Build32.sse false ⟨true, false, false⟩).vec P)
        0 0x3f800000#32 0x3f000000#32 16#32 (fun i => if i < 16 then some 0#32 else none) =
      .ok ((), overwrite (fun i => if i < 16 then some 0#32 else none) 0 16 y) ∧
      ∀ i < 16, IsExp binary32 1 (1 / 2) i (y i) := by
  have o1 := isVal_fin (x := 0x3f800000#32) (q := 1) (by decide +kernel)
  have o2 : binary32.toReal 0x3f800000#32 = 1 := by
    have := isVal_value (x := 0x3f800000#32) (q := 1) (by decide +kernel)
    rwa [Rat.cast_one] at this
  have p1 := isVal_fin (x := 0x3f000000#32) (q := 1 / 2) (by decide +kernel)
  have p2 : binary32.toReal 0x3f000000#32 = 1 / 2 := by
    have := isVal_value (x := 0x3f000000#32) (q := 1 / 2) (by decide +kernel)
    rw [this]; norm_num
  have := C80_exp_simd_float (.sse false ⟨true, false, false⟩) P (n := 16#32) (dest := 0) (f := 0x3f800000#32)
    (curve := 0x3f000000#32) (m := fun i => if i < 16 then some 0#32 else none)
    (by decide) (by decide) (by decide) (by unfold Allocated; decide) o1 p1
  rw [o2, p2] at this
  refine this ?_ ?_ ?_ ?_ <;> unfold IsNormal <;> rw [Fmt.u32, bias32] <;>
    norm_num [Build32.target, Target.size]

/-- A slope in range. -/
example : RampOk binary32 (4 + 64 / 4) 1 (1 / 4) 64 0 := by
  unfold RampOk; rw [Fmt.u32, bias32]; norm_num

end Nova
