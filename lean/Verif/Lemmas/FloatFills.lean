import Verif.Float.Prod
import Verif.Lemmas.FloatRamps
import Verif.Props.C15_Memory

/-!
# Loops that fill a buffer with a sequence (helper lemmas, no properties)
-/

namespace Nova
open FP Spec

section loops
variable {α : Type}

/-- `x, g x c, g (g x c) c, …` -/
def iterSeq (g : α → α → α) (x c : α) : ℕ → α
  | 0 => x
  | i + 1 => g (iterSeq g x c i) c

/-- Element `i` of the SIMD fill loops. -/
def fillElem (I : VecImpl α) (g : α → α → α) (v : I.V) (c : α) (i : ℕ) : α :=
  iterSeq g (v ⟨i % I.size, Nat.mod_lt _ I.size_pos⟩) c (i / I.size)

theorem setSlopeVec_run (E : Env α) {m : Mem α} {dest : Nat} {f slope : α} {n : BitVec 32}
    (hn : 0 < n.toNat) (hout : Allocated m dest n.toNat) :
    setSlopeVec E dest f slope n m = .ok ((), overwrite m dest n.toNat (iterSeq E.S.add f slope)) := by
  unfold setSlopeVec
  rw [Exec.bind_ok (assertNonzero_ok hn m), doWhile_eq_iterM, tripCount_of_pos hn]
  have := iterM_seq (body := fun (s : Nat × α) => do
      let (dest, f) := s
      write dest f
      pure (dest + 1, E.S.add f slope)) (fun k => (dest + k, iterSeq E.S.add f slope k))
      (fun k => overwrite m dest k (iterSeq E.S.add f slope)) n.toNat (by
        intro k hk
        simp only
        rw [Exec.bind_ok (write_overwrite (y := iterSeq E.S.add f slope) (hout k hk) rfl)]
        rfl)
  simp only [overwrite_zero, Nat.add_zero] at this
  rw [show (dest, f) = (dest, iterSeq E.S.add f slope 0) from rfl, Exec.bind_ok this]
  rfl

theorem setExpVec_run (E : Env α) {m : Mem α} {dest : Nat} {f curve : α} {n : BitVec 32}
    (hn : 0 < n.toNat) (hout : Allocated m dest n.toNat) :
    setExpVec E dest f curve n m = .ok ((), overwrite m dest n.toNat (iterSeq E.S.mul f curve)) := by
  unfold setExpVec
  rw [Exec.bind_ok (assertNonzero_ok hn m), doWhile_eq_iterM, tripCount_of_pos hn]
  have := iterM_seq (body := fun (s : Nat × α) => do
      let (dest, f) := s
      write dest f
      pure (dest + 1, E.S.mul f curve)) (fun k => (dest + k, iterSeq E.S.mul f curve k))
      (fun k => overwrite m dest k (iterSeq E.S.mul f curve)) n.toNat (by
        intro k hk
        simp only
        rw [Exec.bind_ok (write_overwrite (y := iterSeq E.S.mul f curve) (hout k hk) rfl)]
        rfl)
  simp only [overwrite_zero, Nat.add_zero] at this
  rw [show (dest, f) = (dest, iterSeq E.S.mul f curve 0) from rfl, Exec.bind_ok this]
  rfl

theorem fillElem_lane (I : VecImpl α) (g : α → α → α) (v : I.V) (c : α) (j : ℕ) (l : Fin I.size) :
    iterSeq g (v l) c j = fillElem I g v c (j * I.size + l) := by
  unfold fillElem
  have h1 : (j * I.size + l) / I.size = j := by
    rw [Nat.mul_comm, Nat.mul_add_div I.size_pos, Nat.div_eq_of_lt l.isLt, Nat.add_zero]
  have h2 : (⟨(j * I.size + l) % I.size, Nat.mod_lt _ I.size_pos⟩ : Fin I.size) = l := by
    ext; simp [Nat.mul_add_mod_of_lt l.isLt, Nat.mod_eq_of_lt l.isLt]
  rw [h1, h2]

theorem setSlopeVecSimd_run (t : Target) (E : Env α) {m : Mem α} {dest : Nat} {f slope : α}
    {n : BitVec 32} (hn : 0 < n.toNat) (hmul : t.perLine ∣ n.toNat) (hal : t.align ∣ dest)
    (hout : Allocated m dest n.toNat) :
    setSlopeVecSimd E (t.vec E) dest f slope n m
      = .ok ((), overwrite m dest n.toNat (fillElem (t.vec E) E.L.add ((t.vec E).setSlope f slope).1
          (E.S.mul (E.S.lit (t.vec E).size) slope))) := by
  have hmul' : (t.vec E).perLine ∣ n.toNat := by rw [t.vec_perLine]; exact hmul
  have := cacheline_unroll (t.lawful E)
    (body := slopeBody (t.vec E) dest ((t.vec E).setVec (E.S.mul (E.S.lit (t.vec E).size) slope)))
    (R := fun j l => iterSeq E.L.add (((t.vec E).setSlope f slope).1 l) (E.S.mul (E.S.lit (t.vec E).size) slope) j)
    (W := fun j => overwrite m dest (j * (t.vec E).size) (fillElem (t.vec E) E.L.add ((t.vec E).setSlope f slope).1
          (E.S.mul (E.S.lit (t.vec E).size) slope))) hn hmul' (by
      intro j hj
      unfold slopeBody
      rw [Exec.bind_ok (storeReg
        ((t.lawful E).storeAligned _ _ (aligned_reg (t.lawful E) hal)) hout hj fun l => fillElem_lane _ _ _ _ _ _)]
      simp only [Exec.pure_run]
      congr 2
      funext l
      unfold VecImpl.zip
      rw [(t.lawful E).setVec, t.vec_lane]
      rfl)
  unfold setSlopeVecSimd
  simp only [Nat.zero_mul, overwrite_zero, div_mul_size (line_size_dvd (t.lawful E) hmul')] at this ⊢
  exact (Exec.bind_ok this).trans rfl

theorem setExpVecSimd_run (t : Target) (E : Env α) {m : Mem α} {dest : Nat} {f curve : α}
    {n : BitVec 32} (hn : 0 < n.toNat) (hmul : t.perLine ∣ n.toNat) (hal : t.align ∣ dest)
    (hout : Allocated m dest n.toNat) :
    setExpVecSimd E (t.vec E) dest f curve n m
      = .ok ((), overwrite m dest n.toNat (fillElem (t.vec E) E.L.mul ((t.vec E).setExp f curve).1
          (powI E.S curve (t.vec E).size))) := by
  have hmul' : (t.vec E).perLine ∣ n.toNat := by rw [t.vec_perLine]; exact hmul
  have := cacheline_unroll (t.lawful E)
    (body := expBody (t.vec E) dest ((t.vec E).setVec (powI E.S curve (t.vec E).size)))
    (R := fun j l => iterSeq E.L.mul (((t.vec E).setExp f curve).1 l) (powI E.S curve (t.vec E).size) j)
    (W := fun j => overwrite m dest (j * (t.vec E).size) (fillElem (t.vec E) E.L.mul ((t.vec E).setExp f curve).1
          (powI E.S curve (t.vec E).size))) hn hmul' (by
      intro j hj
      unfold expBody
      rw [Exec.bind_ok (storeReg
        ((t.lawful E).storeAligned _ _ (aligned_reg (t.lawful E) hal)) hout hj fun l => fillElem_lane _ _ _ _ _ _)]
      simp only [Exec.pure_run]
      congr 2
      funext l
      unfold VecImpl.zip
      rw [(t.lawful E).setVec, t.vec_lane]
      rfl)
  unfold setExpVecSimd
  simp only [Nat.zero_mul, overwrite_zero, div_mul_size (line_size_dvd (t.lawful E) hmul')] at this ⊢
  exact (Exec.bind_ok this).trans rfl

end loops

variable {w : Nat} {F : Fmt w} {E : Env (BitVec w)}

/-- Scalar and lane products are rounded products. -/
structure Muls (F : Fmt w) (E : Env (BitVec w)) : Prop where
  S : ∀ x y, F.isFinite x = true → F.isFinite y = true → |F.toReal x * F.toReal y| ≤ 2 ^ F.bias →
    F.Near (F.toReal x * F.toReal y) (E.S.mul x y)
  L : ∀ x y, F.isFinite x = true → F.isFinite y = true → |F.toReal x * F.toReal y| ≤ 2 ^ F.bias →
    F.Near (F.toReal x * F.toReal y) (E.L.mul x y)

theorem Build32.muls (b : Build32) (P : Platform 32) : Muls binary32 (b.env P) := by
  have hm : ∀ x y, binary32.isFinite x = true → binary32.isFinite y = true →
      |binary32.toReal x * binary32.toReal y| ≤ 2 ^ binary32.bias →
    binary32.Near (binary32.toReal x * binary32.toReal y) (binary32.mul x y) := fun x y hx hy h => Fmt.mul_near hx hy h
  refine ⟨hm, ?_⟩
  cases b with
  | altivec =>
    intro x y hx hy h
    have h0 : binary32.toReal 0#32 = 0 := by
      have := isVal_value (x := 0#32) (q := 0) (by decide +kernel)
      exact_mod_cast this
    have := Fmt.fma_near hx hy (show IsFin binary32 0#32 by decide) (by rw [h0, add_zero]; exact h)
    rw [h0, add_zero] at this
    exact this
  | _ => exact hm

theorem Build64.muls (b : Build64) (P : Platform 64) : Muls binary64 (b.env P) := by
  have hm : ∀ x y, binary64.isFinite x = true → binary64.isFinite y = true →
      |binary64.toReal x * binary64.toReal y| ≤ 2 ^ binary64.bias →
    binary64.Near (binary64.toReal x * binary64.toReal y) (binary64.mul x y) := fun x y hx hy h => Fmt.mul_near hx hy h
  refine ⟨hm, ?_⟩
  cases b <;> exact hm

variable {f c : BitVec w}

/-- A chain of multiplications. -/
theorem expChain (hE : Muls F E) (hf : F.isFinite f = true) (hc : F.isFinite c = true) {N : ℕ}
    (h : ∀ k ≤ N, Normal F N (F.toReal f * F.toReal c ^ k)) : ∀ k ≤ N + 1, (k = 0 ∨ k ≤ N) →
    Prd F k (F.toReal f * F.toReal c ^ k) (iterSeq E.S.mul f c k)
  | 0, _, _ => (Prd.exact hf).congr rfl (by simp)
  | k + 1, _, hk => by
    have ih := expChain hE hf hc h k (by omega) (by omega)
    rw [iterSeq]
    refine (ih.mul (Prd.exact hc) ?_ fun h1 h2 => hE.S _ _ h1 h2).congr (by omega) (by rw [pow_succ]; ring)
    rw [mul_assoc, ← pow_succ]
    exact (h (k + 1) (by omega)).mono (by omega)

/-- `powI` -/
theorem powI_prd (hE : Muls F E) (hc : F.isFinite c = true) {N : ℕ} (h : ∀ k, 1 ≤ k → k ≤ N → Normal F N (F.toReal c ^ k)) :
    ∀ k, k + 1 ≤ N → Prd F k (F.toReal c ^ (k + 1)) (powI E.S c (k + 1))
  | 0, _ => (Prd.exact hc).congr rfl (by simp)
  | k + 1, hk => by
    have ih := powI_prd hE hc h k (by omega)
    rw [powI]
    refine ((Prd.exact hc).mul ih ?_ fun h1 h2 => hE.S _ _ h1 h2).congr (by omega) (by rw [pow_succ _ (k + 1)]; ring)
    rw [← pow_succ']
    exact (h _ (by omega) hk).mono (by omega)

theorem value_eq (A : Arith (BitVec w)) (i : ℕ) : Base.value A f c i = iterSeq A.mul f c i := by
  induction i with
  | zero => rfl
  | succ i ih => rw [Base.value, iterSeq, ih]

/-- `set_exp`: the lanes are a chain of multiplications. -/
theorem setExp_lane (t : Target) (E : Env (BitVec w)) (l : Fin (t.vec E).size) :
    ((t.vec E).setExp f c).1 l = iterSeq E.S.mul f c l := by
  cases t with
  | genericFloat => exact value_eq E.S l
  | genericDouble => exact value_eq E.S l
  | sse a b => revert l; apply lanes4_forall (P := fun l v => v = iterSeq E.S.mul f c l) <;> rfl
  | sse2 => revert l; apply lanes2_forall (P := fun l v => v = iterSeq E.S.mul f c l) <;> rfl
  | avxFloat => revert l; apply lanes8_forall (P := fun l v => v = iterSeq E.S.mul f c l) <;> rfl
  | avxDouble => revert l; apply lanes4_forall (P := fun l v => v = iterSeq E.S.mul f c l) <;> rfl
  | neon => revert l; apply lanes4_forall (P := fun l v => v = iterSeq E.S.mul f c l) <;> rfl
  | altivec => revert l; apply lanes4_forall (P := fun l v => v = iterSeq E.S.mul f c l) <;> rfl

/-- An element of `set_exp_vec_simd`. -/
theorem expElem (t : Target) (hE : Muls F E) (hf : F.isFinite f = true) (hc : F.isFinite c = true) {i : ℕ}
    (h : ∀ k ≤ i, Normal F i (F.toReal f * F.toReal c ^ k))
    (hp : ∀ k, 1 ≤ k → k ≤ t.size → Normal F t.size (F.toReal c ^ k)) :
    Prd F i (F.toReal f * F.toReal c ^ i)
      (fillElem (t.vec E) E.L.mul ((t.vec E).setExp f c).1 (powI E.S c (t.vec E).size) i) := by
  have hsz : (t.vec E).size = t.size := t.vec_size E
  have hs0 : 0 < t.size := by rw [← hsz]; exact (t.vec E).size_pos
  have hpw : Prd F (t.size - 1) (F.toReal c ^ t.size) (powI E.S c (t.vec E).size) := by
    rw [hsz]
    have := powI_prd hE hc hp (t.size - 1) (by omega)
    rwa [Nat.sub_add_cancel hs0] at this
  have ei : i / t.size * t.size + i % t.size = i := Nat.div_add_mod' i _
  unfold fillElem
  rw [setExp_lane]
  simp only
  have : ∀ j ≤ i / t.size, Prd F (j * t.size + i % t.size) (F.toReal f * F.toReal c ^ (j * t.size + i % t.size))
      (iterSeq E.L.mul (iterSeq E.S.mul f c (i % t.size)) (powI E.S c (t.vec E).size) j) := by
    intro j
    induction j with
    | zero =>
      intro _
      rw [Nat.zero_mul, Nat.zero_add]
      exact expChain hE hf hc h _ (by omega) (.inr (by omega))
    | succ j ih =>
      intro hj
      have hle : (j + 1) * t.size ≤ i / t.size * t.size := Nat.mul_le_mul_right _ hj
      rw [Nat.succ_mul] at hle ⊢
      rw [iterSeq]
      have e : j * t.size + i % t.size + t.size = j * t.size + t.size + i % t.size := by omega
      refine ((ih (by omega)).mul hpw ?_ fun h1 h2 => hE.L _ _ h1 h2).congr (by omega) (by
        rw [mul_assoc, ← pow_add, e])
      rw [mul_assoc, ← pow_add]
      exact (h _ (by omega)).mono (by omega)
  have := this _ le_rfl
  rw [ei] at this
  rw [hsz] at this ⊢
  exact this

/-! ## Slopes -/

/-- Multiplication by a power of two is exact. -/
theorem two_pow_mul {x y : BitVec w} (hx : F.isFinite x = true) (hy : F.isFinite y = true) {k : ℕ}
    (hv : F.toReal y = 2 ^ k) (h : 2 ^ k * |F.toReal x| ≤ 2 ^ F.bias) :
    F.isFinite (F.mul y x) = true ∧ F.toReal (F.mul y x) = 2 ^ k * F.toReal x := by
  have hS : (0 : ℝ) < 2 ^ F.scale := by positivity
  have hny : F.neg y = false ∧ mag F.mb (F.code y) = 2 ^ k * 2 ^ F.scale := by
    rw [F.toReal_eq] at hv
    have hm : (0 : ℝ) ≤ (mag F.mb (F.code y) : ℝ) / 2 ^ F.scale := div_nonneg (Nat.cast_nonneg _) hS.le
    have hk : (0 : ℝ) < 2 ^ k := by positivity
    cases hn : F.neg y
    · refine ⟨rfl, ?_⟩
      rw [hn, if_neg (by decide), one_mul, div_eq_iff hS.ne'] at hv
      exact_mod_cast hv
    · rw [hn, if_pos rfl] at hv
      linarith
  obtain ⟨t, m, hc, h1, h2⟩ := code_decomp F.mb (F.code x)
  have hmag : mag F.mb (F.code x) = m * 2 ^ t := by rw [hc]; exact mag_decomp F.mb h1.le h2
  obtain ⟨c, hcc⟩ := mag_exists (mb := F.mb) (m := m) (t + k) h1.le
  have hN : mag F.mb (F.code y) * mag F.mb (F.code x) = mag F.mb c * 2 ^ F.scale := by
    rw [hny.2, hmag, hcc, pow_add]; ring
  have hr : rne F.mb (mag F.mb (F.code y) * mag F.mb (F.code x)) (2 ^ F.scale) = c :=
    rne_exact (Nat.two_pow_pos _) hN
  have hxr : |F.toReal x| = (mag F.mb (F.code x) : ℝ) / 2 ^ F.scale := by
    rw [F.toReal_eq, abs_mul, show |(if F.neg x = true then -1 else 1 : ℝ)| = 1 by cases F.neg x <;> simp, one_mul,
      abs_of_nonneg (div_nonneg (Nat.cast_nonneg _) hS.le)]
  have hcr : (mag F.mb c : ℝ) = 2 ^ k * (mag F.mb (F.code x) : ℝ) := by
    rw [hcc, hmag]; push_cast; ring
  have hlt : c < F.infCode := by
    rw [← hr]
    apply F.rne_lt_infCode (Nat.two_pow_pos _)
    rw [hN]
    apply Nat.mul_le_mul_right
    have : (mag F.mb c : ℝ) ≤ 2 ^ F.bias * 2 ^ F.scale := by
      rw [hxr, ← mul_div_assoc, ← hcr, div_le_iff₀ hS] at h; exact h
    exact_mod_cast this
  rw [F.mul_finite hy hx]
  unfold Fmt.packRnd
  rw [hr, Nat.min_eq_right hlt.le]
  refine ⟨F.isFinite_pack _ hlt, ?_⟩
  rw [F.toReal_pack _ hlt, F.toReal_eq x, hny.1, hcr]
  cases F.neg x <;> simp <;> ring

/-- `vec<F>::size * slope` -/
def MulSize (F : Fmt w) (E : Env (BitVec w)) (size : ℕ) : Prop :=
  ∀ s, F.isFinite s = true → size * |F.toReal s| ≤ 2 ^ F.bias →
    F.isFinite (E.S.mul (E.S.lit size) s) = true ∧ F.toReal (E.S.mul (E.S.lit size) s) = size * F.toReal s

theorem lit32_4 : litD32 (4 : ℕ) = 0x40800000#32 := by decide +kernel
theorem lit32_8 : litD32 (8 : ℕ) = 0x41000000#32 := by decide +kernel
theorem lit64_2 : binary64.ofRat (2 : ℕ) = 0x4000000000000000#64 := by decide +kernel
theorem lit64_4 : binary64.ofRat (4 : ℕ) = 0x4010000000000000#64 := by decide +kernel

theorem Build32.mulSize (b : Build32) (P : Platform 32) : MulSize binary32 (b.env P) b.target.size := by
  intro s hs h
  have hl : (b.env P).S.lit = litD32 := rfl
  have hm : (b.env P).S.mul = binary32.mul := rfl
  have v4 : binary32.toReal 0x40800000#32 = 2 ^ 2 := by
    have := isVal_value (x := 0x40800000#32) (q := 4) (by decide +kernel)
    rw [this]; norm_num
  have v8 : binary32.toReal 0x41000000#32 = 2 ^ 3 := by
    have := isVal_value (x := 0x41000000#32) (q := 8) (by decide +kernel)
    rw [this]; norm_num
  have : b.target.size = 4 ∨ b.target.size = 8 := by cases b <;> simp [Build32.target, Target.size]
  rw [hl, hm]
  rcases this with e | e
  · rw [e] at h ⊢
    rw [lit32_4]
    have := two_pow_mul (k := 2) hs (show IsFin binary32 0x40800000#32 by decide) v4 (by
      refine le_trans (le_of_eq ?_) h; norm_num)
    refine ⟨this.1, this.2.trans (by norm_num)⟩
  · rw [e] at h ⊢
    rw [lit32_8]
    have := two_pow_mul (k := 3) hs (show IsFin binary32 0x41000000#32 by decide) v8 (by
      refine le_trans (le_of_eq ?_) h; norm_num)
    refine ⟨this.1, this.2.trans (by norm_num)⟩

theorem units64_2 : binary64.units 0x4000000000000000#64 = 2 ^ 1075 := by decide +kernel
theorem units64_4 : binary64.units 0x4010000000000000#64 = 2 ^ 1076 := by decide +kernel

theorem Build64.mulSize (b : Build64) (P : Platform 64) : MulSize binary64 (b.env P) b.target.size := by
  intro s hs h
  have hl : (b.env P).S.lit = binary64.ofRat := rfl
  have hm : (b.env P).S.mul = binary64.mul := rfl
  have hsc : binary64.scale = 1074 := by decide
  have v2 : binary64.toReal 0x4000000000000000#64 = 2 ^ 1 := by
    unfold Fmt.toReal
    rw [units64_2, hsc, Int.cast_pow, Int.cast_ofNat, div_eq_iff (pow_ne_zero _ two_ne_zero), ← pow_add]
  have v4 : binary64.toReal 0x4010000000000000#64 = 2 ^ 2 := by
    unfold Fmt.toReal
    rw [units64_4, hsc, Int.cast_pow, Int.cast_ofNat, div_eq_iff (pow_ne_zero _ two_ne_zero), ← pow_add]
  have : b.target.size = 2 ∨ b.target.size = 4 := by cases b <;> simp [Build64.target, Target.size]
  rw [hl, hm]
  rcases this with e | e
  · rw [e] at h ⊢
    rw [lit64_2]
    have := two_pow_mul (k := 1) hs (show IsFin binary64 0x4000000000000000#64 by decide) v2 (by
      refine le_trans (le_of_eq ?_) h; norm_num)
    refine ⟨this.1, this.2.trans (by norm_num)⟩
  · rw [e] at h ⊢
    rw [lit64_4]
    have := two_pow_mul (k := 2) hs (show IsFin binary64 0x4010000000000000#64 by decide) v4 (by
      refine le_trans (le_of_eq ?_) h; norm_num)
    refine ⟨this.1, this.2.trans (by norm_num)⟩

theorem iterSeq_add (A : Arith (BitVec w)) (i : ℕ) : iterSeq A.add f c i = scalarRamp A f c i := by
  induction i with
  | zero => rfl
  | succ i ih => rw [iterSeq, scalarRamp, ih]

/-- An element of `set_slope_vec_simd`. -/
theorem slopeElem (t : Target) (hE : Adds F E) (h8 : MulSize F E t.size) (hf : F.isFinite f = true)
    (hc : F.isFinite c = true) {i : ℕ} (hM : RmpOk F (F.toReal f) (F.toReal c) i (t.size + i / t.size)) :
    FP.Acc F (t.size + i / t.size) (F.toReal f + i * F.toReal c) (|F.toReal f| + i * |F.toReal c|) 0
      (fillElem (t.vec E) E.L.add ((t.vec E).setSlope f c).1 (E.S.mul (E.S.lit (t.vec E).size) c) i) := by
  have hsz : (t.vec E).size = t.size := t.vec_size E
  have hs0 : 0 < t.size := by rw [← hsz]; exact (t.vec E).size_pos
  have ei : i / t.size * t.size + i % t.size = i := Nat.div_add_mod' i _
  obtain ⟨l, hl, e⟩ : ∃ l : Fin (t.vec E).size, (l : ℕ) = i % t.size ∧
      fillElem (t.vec E) E.L.add ((t.vec E).setSlope f c).1 (E.S.mul (E.S.lit (t.vec E).size) c) i =
      iterSeq E.L.add (((t.vec E).setSlope f c).1 l) (E.S.mul (E.S.lit t.size) c) (i / t.size) := by
    refine ⟨⟨i % (t.vec E).size, Nat.mod_lt _ (t.vec E).size_pos⟩, by rw [← hsz], ?_⟩
    unfold fillElem
    rw [show i / (t.vec E).size = i / t.size by rw [hsz],
      show E.S.lit ((t.vec E).size : ℕ) = E.S.lit (t.size : ℕ) by rw [hsz]]
  rw [e]
  have h0 := setSlope_lane_acc t hE hf hc l (hM.mono (by omega) (Nat.le_add_right _ _))
  have := Acc.fold (F := F) (g := E.L.add) hE.L
    (acc := iterSeq E.L.add (((t.vec E).setSlope f c).1 l) (E.S.mul (E.S.lit t.size) c))
    (x := fun _ => E.S.mul (E.S.lit t.size) c)
    (T' := fun _ => t.size * F.toReal c) (B' := fun _ => t.size * |F.toReal c|) (f' := fun _ => 0) h0 (i / t.size)
    (fun i _ => rfl)
    (fun k hk => by
      have hle : t.size ≤ i := by
        by_contra h
        rw [Nat.div_eq_of_lt (by omega)] at hk
        omega
      have h9 : t.size * |F.toReal c| ≤ 2 ^ F.bias := by
        have h1 : RmpOk F (F.toReal f) (F.toReal c) t.size 0 := hM.mono hle (Nat.zero_le _)
        unfold RmpOk at h1
        rw [pow_zero, one_mul] at h1
        have := abs_nonneg (F.toReal f)
        linarith
      obtain ⟨g1, g2⟩ := h8 c hc h9
      have := Acc.exact g1
      rw [g2] at this
      refine (this.mono (Nat.zero_le _)).congr rfl ?_ rfl
      rw [abs_mul, Nat.abs_cast])
    (by
      refine le_trans (le_of_eq ?_) hM
      simp only [Finset.sum_const, Finset.card_range, nsmul_eq_mul]
      rw [hl]
      have : (i : ℝ) = (i / t.size : ℕ) * (t.size : ℝ) + (i % t.size : ℕ) := by exact_mod_cast ei.symm
      rw [this]
      push_cast
      ring)
  have hi : (i : ℝ) = (i / t.size : ℕ) * (t.size : ℝ) + (i % t.size : ℕ) := by exact_mod_cast ei.symm
  refine this.congr ?_ ?_ ?_
  · simp only [Finset.sum_const, Finset.card_range, nsmul_eq_mul]; rw [hl, hi]; push_cast; ring
  · simp only [Finset.sum_const, Finset.card_range, nsmul_eq_mul]; rw [hl, hi]; push_cast; ring
  · simp

end Nova
