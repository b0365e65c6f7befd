import Verif.Lemmas.FloatRamps
import Verif.Props.C21_Pan
import Verif.SpecFades

/-!
# Signals times ramps in floating point (helper lemmas, no properties)
-/

namespace Nova
open FP Spec

/-! ## pan2 with ramped gains, in any arithmetic -/

section pan
variable {α : Type}

/-- Register `j`, lane `l` of the gain in `pan2_vec_simd` with slopes.  Unlike a ramp argument it does not pass through a
`float`. -/
def panRampReg (I : VecImpl α) (base slope : α) : Nat → Fin I.size → α
  | 0 => (I.setSlope base slope).1
  | j + 1 => fun l => I.lane.add (panRampReg I base slope j l) (I.setVec (I.setSlope base slope).2 l)

/-- Element `i` of the gain in `pan2_vec_simd` with slopes. -/
def panRamp (I : VecImpl α) (base slope : α) (i : Nat) : α :=
  panRampReg I base slope (i / I.size) ⟨i % I.size, Nat.mod_lt _ I.size_pos⟩

theorem panRamp_reg (I : VecImpl α) (base slope : α) (j : Nat) (l : Fin I.size) :
    panRamp I base slope (j * I.size + l) = panRampReg I base slope j l := by
  unfold panRamp
  have h1 : (j * I.size + l) / I.size = j := by
    rw [Nat.mul_comm, Nat.mul_add_div I.size_pos, Nat.div_eq_of_lt l.isLt, Nat.add_zero]
  have h2 : (j * I.size + l) % I.size = l := by
    rw [Nat.mul_comm, Nat.mul_add_mod, Nat.mod_eq_of_lt l.isLt]
  have : ∀ j' l', j' = j → l' = l → panRampReg I base slope j' l' = panRampReg I base slope j l := by
    rintro _ _ rfl rfl; rfl
  exact this _ _ h1 (Fin.ext h2)

theorem pan2_ramp_scalar_ok (E : Env α) {m : Mem α} {out0 out1 inp : Nat}
    {f0 s0 f1 s1 : α} {n : BitVec 32} {x : Nat → α} (hn : 0 < n.toNat)
    (hdis : Disjoint2 out0 out1 n.toNat) (hin : Holds m inp n.toNat x)
    (h0 : Allocated m out0 n.toNat) (h1 : Allocated m out1 n.toNat)
    (p0 : SafePlacement out0 inp n.toNat) (p1 : SafePlacement out1 inp n.toNat) :
    pan2VecRamp E out0 out1 inp f0 s0 f1 s1 n m
      = .ok ((), overwrite (overwrite m out0 n.toNat fun i => E.S.mul (x i) (scalarRamp E.S f0 s0 i)) out1 n.toNat
          fun i => E.S.mul (x i) (scalarRamp E.S f1 s1 i)) := by
  unfold pan2VecRamp
  rw [doWhile_eq_iterM, tripCount_of_pos hn]
  have := iterM_seq (body := fun (s : (Nat × Nat × Nat) × α × α) => do
      let ((out0, out1, inp), f0, f1) := s
      let sig ← read inp
      write out0 (E.S.mul sig f0)
      write out1 (E.S.mul sig f1)
      pure ((out0 + 1, out1 + 1, inp + 1), E.S.add f0 s0, E.S.add f1 s1))
      (fun k => ((out0 + k, out1 + k, inp + k), scalarRamp E.S f0 s0 k, scalarRamp E.S f1 s1 k))
      (fun k => panMem m out0 out1 k (fun i => E.S.mul (x i) (scalarRamp E.S f0 s0 i))
        fun i => E.S.mul (x i) (scalarRamp E.S f1 s1 i))
      n.toNat (by
        intro k hk
        simp only
        rw [pan_scalar_step hdis hin h0 h1 p0 p1 hk rfl rfl]
        rfl)
  simp only [panMem, overwrite_zero, Nat.add_zero, scalarRamp] at this
  rw [Exec.bind_ok this]
  rfl

variable (t : Target) (E : Env α) {m : Mem α} {out0 out1 inp : Nat} {x : Nat → α} {f0 s0 f1 s1 : α}

theorem pan2RampBody_any {n : Nat} (a0 : t.align ∣ out0) (a1 : t.align ∣ out1) (ai : t.align ∣ inp)
    (hdis : Disjoint2 out0 out1 n) (hin : Holds m inp n x)
    (h0 : Allocated m out0 n) (h1 : Allocated m out1 n)
    (p0 : SafePlacement out0 inp n) (p1 : SafePlacement out1 inp n)
    (j : Nat) (hj : (j + 1) * (t.vec E).size ≤ n) :
    pan2RampBody (t.vec E) out0 out1 inp ((t.vec E).setVec ((t.vec E).setSlope f0 s0).2)
      ((t.vec E).setVec ((t.vec E).setSlope f1 s1).2) (j * (t.vec E).size)
      (panRampReg (t.vec E) f0 s0 j, panRampReg (t.vec E) f1 s1 j)
      (panMem m out0 out1 (j * (t.vec E).size) (fun i => E.L.mul (x i) (panRamp (t.vec E) f0 s0 i))
        fun i => E.L.mul (x i) (panRamp (t.vec E) f1 s1 i))
      = .ok ((panRampReg (t.vec E) f0 s0 (j + 1), panRampReg (t.vec E) f1 s1 (j + 1)),
          panMem m out0 out1 ((j + 1) * (t.vec E).size) (fun i => E.L.mul (x i) (panRamp (t.vec E) f0 s0 i))
            fun i => E.L.mul (x i) (panRamp (t.vec E) f1 s1 i)) := by
  unfold pan2RampBody
  simp only
  rw [pan_simd_step t E a0 a1 ai hdis hin h0 h1 p0 p1 hj
    (y0 := fun i => E.L.mul (x i) (panRamp (t.vec E) f0 s0 i))
    (y1 := fun i => E.L.mul (x i) (panRamp (t.vec E) f1 s1 i))
    (fun l => by rw [panRamp_reg]) (fun l => by rw [panRamp_reg])]
  rfl

theorem pan2_ramp_simd_ok {n : BitVec 32} (hn : 0 < n.toNat) (hmul : t.perLine ∣ n.toNat)
    (a0 : t.align ∣ out0) (a1 : t.align ∣ out1) (ai : t.align ∣ inp)
    (hdis : Disjoint2 out0 out1 n.toNat) (hin : Holds m inp n.toNat x)
    (h0 : Allocated m out0 n.toNat) (h1 : Allocated m out1 n.toNat)
    (p0 : SafePlacement out0 inp n.toNat) (p1 : SafePlacement out1 inp n.toNat) :
    pan2VecRampSimd (t.vec E) out0 out1 inp f0 s0 f1 s1 n m
      = .ok ((), overwrite (overwrite m out0 n.toNat fun i => E.L.mul (x i) (panRamp (t.vec E) f0 s0 i)) out1 n.toNat
          fun i => E.L.mul (x i) (panRamp (t.vec E) f1 s1 i)) := by
  have hmul' : (t.vec E).perLine ∣ n.toNat := by rw [t.vec_perLine]; exact hmul
  unfold pan2VecRampSimd
  have := cacheline_unroll (t.lawful E)
    (body := pan2RampBody (t.vec E) out0 out1 inp ((t.vec E).setVec ((t.vec E).setSlope f0 s0).2)
      ((t.vec E).setVec ((t.vec E).setSlope f1 s1).2))
    (R := fun j => (panRampReg (t.vec E) f0 s0 j, panRampReg (t.vec E) f1 s1 j))
    (W := fun j => panMem m out0 out1 (j * (t.vec E).size) (fun i => E.L.mul (x i) (panRamp (t.vec E) f0 s0 i))
      fun i => E.L.mul (x i) (panRamp (t.vec E) f1 s1 i)) hn hmul'
    (fun j hj => pan2RampBody_any t E a0 a1 ai hdis hin h0 h1 p0 p1 j hj)
  simp only [panMem, Nat.zero_mul, overwrite_zero,
    div_mul_size (line_size_dvd (t.lawful E) hmul')] at this
  rw [show panRampReg (t.vec E) f0 s0 0 = ((t.vec E).setSlope f0 s0).1 from rfl,
    show panRampReg (t.vec E) f1 s1 0 = ((t.vec E).setSlope f1 s1).1 from rfl] at this
  simp only
  rw [Exec.bind_ok this]
  rfl

theorem pan2_ramp_simd_n_ok {N : Nat} (hmul : t.size ∣ N)
    (a0 : t.align ∣ out0) (a1 : t.align ∣ out1) (ai : t.align ∣ inp)
    (hdis : Disjoint2 out0 out1 N) (hin : Holds m inp N x)
    (h0 : Allocated m out0 N) (h1 : Allocated m out1 N)
    (p0 : SafePlacement out0 inp N) (p1 : SafePlacement out1 inp N) :
    pan2VecRampSimdN (t.vec E) N out0 out1 inp f0 s0 f1 s1 m
      = .ok ((), overwrite (overwrite m out0 N fun i => E.L.mul (x i) (panRamp (t.vec E) f0 s0 i)) out1 N
          fun i => E.L.mul (x i) (panRamp (t.vec E) f1 s1 i)) := by
  have hmul' : (t.vec E).size ∣ N := by rw [t.vec_size]; exact hmul
  unfold pan2VecRampSimdN
  have := unroll_all
    (body := pan2RampBody (t.vec E) out0 out1 inp ((t.vec E).setVec ((t.vec E).setSlope f0 s0).2)
      ((t.vec E).setVec ((t.vec E).setSlope f1 s1).2))
    (R := fun j => (panRampReg (t.vec E) f0 s0 j, panRampReg (t.vec E) f1 s1 j))
    (W := fun j => panMem m out0 out1 (j * (t.vec E).size) (fun i => E.L.mul (x i) (panRamp (t.vec E) f0 s0 i))
      fun i => E.L.mul (x i) (panRamp (t.vec E) f1 s1 i)) hmul'
    (fun j hj => pan2RampBody_any t E a0 a1 ai hdis hin h0 h1 p0 p1 j hj)
  simp only [panMem, Nat.zero_mul, overwrite_zero, div_mul_size hmul'] at this
  rw [show panRampReg (t.vec E) f0 s0 0 = ((t.vec E).setSlope f0 s0).1 from rfl,
    show panRampReg (t.vec E) f1 s1 0 = ((t.vec E).setSlope f1 s1).1 from rfl] at this
  simp only
  rw [Exec.bind_ok this]
  rfl

end pan

/-! ## Products with a ramp -/

variable {w : Nat} {F : Fmt w}

/-- The products of the lanes and of the scalar code are rounded products. -/
structure ProdNear (F : Fmt w) (E : Env (BitVec w)) : Prop where
  S : ∀ x y, IsFin F x → IsFin F y → |F.toReal x * F.toReal y| ≤ 2 ^ F.bias →
    F.Near (F.toReal x * F.toReal y) (E.S.mul x y)
  L : ∀ x y, IsFin F x → IsFin F y → |F.toReal x * F.toReal y| ≤ 2 ^ F.bias →
    F.Near (F.toReal x * F.toReal y) (E.L.mul x y)

theorem Build32.prodNear (b : Build32) (P : Platform 32) : ProdNear binary32 (b.env P) := by
  have hm : ∀ x y, IsFin binary32 x → IsFin binary32 y → |binary32.toReal x * binary32.toReal y| ≤ 2 ^ binary32.bias →
    binary32.Near (binary32.toReal x * binary32.toReal y) (binary32.mul x y) := fun x y hx hy h => Fmt.mul_near hx hy h
  refine ⟨hm, ?_⟩
  cases b with
  | altivec =>
    intro x y hx hy h
    have h0 : binary32.toReal 0#32 = 0 := by
      have := isVal_value (x := 0#32) (q := 0) (by decide +kernel)
      exact_mod_cast this
    have := Fmt.fma_near hx hy (show IsFin binary32 0#32 by decide) (by rw [h0, add_zero]; exact h)
    rw [h0, add_zero] at this
    exact this
  | _ => exact hm

theorem Build64.prodNear (b : Build64) (P : Platform 64) : ProdNear binary64 (b.env P) := by
  have hm : ∀ x y, IsFin binary64 x → IsFin binary64 y → |binary64.toReal x * binary64.toReal y| ≤ 2 ^ binary64.bias →
    binary64.Near (binary64.toReal x * binary64.toReal y) (binary64.mul x y) := fun x y hx hy h => Fmt.mul_near hx hy h
  refine ⟨hm, ?_⟩
  cases b <;> exact hm

/-- A number times an approximate sum. -/
theorem FP.Acc.mul_left {d : ℕ} {S A e : ℝ} {x y r : BitVec w} (h : FP.Acc F d S A e y)
    (hn : F.Near (F.toReal x * F.toReal y) r) :
    FP.Acc F (d + 1) (F.toReal x * S) (|F.toReal x| * A) (|F.toReal x| * e + F.eta) r := by
  have hu := F.u_pos
  have he := F.eta_pos
  have hx := abs_nonneg (F.toReal x)
  have h0 := mul_nonneg hx h.ae0
  refine ⟨hn.1, ?_, by have := mul_nonneg hx h.e0; linarith, ?_⟩
  · rw [abs_mul]; exact mul_le_mul_of_nonneg_left h.abs hx
  · have h1 : |F.toReal x * F.toReal y| ≤ (1 + F.u) ^ d * (|F.toReal x| * (A + e)) := by
      rw [abs_mul]
      have := mul_le_mul_of_nonneg_left h.le hx
      linarith
    have h2 : |F.toReal x * F.toReal y - F.toReal x * S| ≤
        (1 + F.u) ^ d * (|F.toReal x| * (A + e)) - |F.toReal x| * A := by
      rw [← mul_sub, abs_mul]
      have := mul_le_mul_of_nonneg_left h.err hx
      linarith
    have h3 := hn.2
    have h4 : |F.toReal r - F.toReal x * F.toReal y| ≤ F.u * ((1 + F.u) ^ d * (|F.toReal x| * (A + e))) + F.eta := by
      refine h3.trans (max_le ?_ ?_)
      · have := mul_le_mul_of_nonneg_left h1 hu.le
        linarith
      · have : 0 ≤ F.u * ((1 + F.u) ^ d * (|F.toReal x| * (A + e))) :=
          mul_nonneg hu.le (mul_nonneg (pow_nonneg (by linarith) _) h0)
        linarith
    have h5 : |F.toReal r - F.toReal x * S| ≤
        |F.toReal r - F.toReal x * F.toReal y| + |F.toReal x * F.toReal y - F.toReal x * S| := by
      have := abs_add_le (F.toReal r - F.toReal x * F.toReal y) (F.toReal x * F.toReal y - F.toReal x * S)
      rwa [sub_add_sub_cancel] at this
    have h6 := mul_le_mul_of_nonneg_right (Acc.one_le F (d + 1)) he.le
    rw [pow_succ] at h6 ⊢
    linarith

theorem acc_of_isRamp {d i : ℕ} {B s e : ℝ} {r : BitVec w} (he : 0 ≤ e) (h : IsRamp F d B s i e r) :
    FP.Acc F d (B + i * s) (|B| + i * |s|) e r := by
  refine ⟨h.1, ?_, he, h.2.trans (le_of_eq (by ring))⟩
  refine (abs_add_le _ _).trans (add_le_add_right ?_ _)
  rw [abs_mul, Nat.abs_cast]

theorem fade_acc {d i : ℕ} {B s e : ℝ} {x y r : BitVec w} (he : 0 ≤ e) (hr : IsRamp F d B s i e y)
    (hM : (1 + F.u) ^ d * (|F.toReal x| * (|B| + i * |s| + e)) ≤ 2 ^ F.bias)
    (hm : |F.toReal x * F.toReal y| ≤ 2 ^ F.bias → F.Near (F.toReal x * F.toReal y) r) :
    FP.Acc F (d + 1) (F.toReal x * (B + i * s)) (|F.toReal x| * (|B| + i * |s|)) (|F.toReal x| * e + F.eta) r := by
  have h := acc_of_isRamp he hr
  refine h.mul_left (hm ?_)
  refine le_trans ?_ hM
  rw [abs_mul]
  have := mul_le_mul_of_nonneg_left h.le (abs_nonneg (F.toReal x))
  linarith

theorem FadeOk.ramp {d d' i : ℕ} {x B s e : ℝ} (he : 0 ≤ e) (h : FadeOk F d' x B s i e) (hd : d ≤ d') :
    RampOk F d B s i e :=
  le_trans (mul_le_mul_of_nonneg_right (Acc.pow_mono F hd) (by positivity)) h.1

theorem isFade_of {d i : ℕ} {B s e : ℝ} {x y r : BitVec w} (he : 0 ≤ e) (hr : IsRamp F d B s i e y)
    (hM : FadeOk F (d + 1) (F.toReal x) B s i e)
    (hm : |F.toReal x * F.toReal y| ≤ 2 ^ F.bias → F.Near (F.toReal x * F.toReal y) r) :
    IsFade F (d + 1) (F.toReal x) B s i e r := by
  have h := fade_acc he hr (le_trans (mul_le_mul_of_nonneg_right (Acc.pow_mono F (Nat.le_succ d)) (by positivity)) hM.2) hm
  exact ⟨h.fin, h.tol⟩

theorem CrossfadeOk.ramp0 {d d' i : ℕ} {x B s e x' B' s' e' : ℝ} (he : 0 ≤ e)
    (h : CrossfadeOk F d' x B s x' B' s' i e e') (hd : d ≤ d') : RampOk F d B s i e :=
  le_trans (mul_le_mul_of_nonneg_right (Acc.pow_mono F hd) (by positivity)) h.1

theorem CrossfadeOk.ramp1 {d d' i : ℕ} {x B s e x' B' s' e' : ℝ} (he : 0 ≤ e')
    (h : CrossfadeOk F d' x B s x' B' s' i e e') (hd : d ≤ d') : RampOk F d B' s' i e' :=
  le_trans (mul_le_mul_of_nonneg_right (Acc.pow_mono F hd) (by positivity)) h.2.1

theorem isCrossfade_of {d i : ℕ} {B s e B' s' e' : ℝ} {x y x' y' p p' : BitVec w} (he : 0 ≤ e) (he' : 0 ≤ e')
    (hr : IsRamp F d B s i e y) (hr' : IsRamp F d B' s' i e' y')
    (hM : CrossfadeOk F (d + 2) (F.toReal x) B s (F.toReal x') B' s' i e e')
    (hm : |F.toReal x * F.toReal y| ≤ 2 ^ F.bias → F.Near (F.toReal x * F.toReal y) p)
    (hm' : |F.toReal x' * F.toReal y'| ≤ 2 ^ F.bias → F.Near (F.toReal x' * F.toReal y') p') :
    IsCrossfade F (d + 2) (F.toReal x) B s (F.toReal x') B' s' i e e' (F.add p p') := by
  have h0 : 0 ≤ |F.toReal x| * (|B| + i * |s| + e) := by positivity
  have h0' : 0 ≤ |F.toReal x'| * (|B'| + i * |s'| + e') := by positivity
  have eta := F.eta_pos
  have hM2 := hM.2.2
  have hM1 : (1 + F.u) ^ (d + 1) * (|F.toReal x| * (|B| + i * |s| + e) + |F.toReal x'| * (|B'| + i * |s'| + e') +
      2 * F.eta) ≤ 2 ^ F.bias :=
    le_trans (mul_le_mul_of_nonneg_right (Acc.pow_mono F (Nat.le_succ _)) (by linarith)) hM2
  have hM0 : (1 + F.u) ^ d * (|F.toReal x| * (|B| + i * |s| + e) + |F.toReal x'| * (|B'| + i * |s'| + e') +
      2 * F.eta) ≤ 2 ^ F.bias :=
    le_trans (mul_le_mul_of_nonneg_right (Acc.pow_mono F (Nat.le_succ _)) (by linarith)) hM1
  have one := zero_le_one.trans (Acc.one_le F d)
  have a := fade_acc he hr (le_trans (mul_le_mul_of_nonneg_left (by linarith) one) hM0) hm
  have a' := fade_acc he' hr' (le_trans (mul_le_mul_of_nonneg_left (by linarith) one) hM0) hm'
  have := a.add a' (le_trans (le_of_eq (by ring)) hM1)
  refine ⟨this.fin, this.tol.trans (le_of_eq (by ring))⟩

end Nova
