import Verif.Laws
import Verif.Lemmas.Bundle

/-!
# The buffer functions compute the specified memory (helper lemmas for C01-C09)
-/

namespace Nova
open Spec
variable {α : Type}

theorem dvd_add_mul {al w p j : Nat} (hp : al ∣ p) (hw : al ∣ w) : al ∣ p + j * w :=
  Nat.dvd_add hp (Nat.dvd_trans hw (Nat.dvd_mul_left w j))

theorem allocated_reg {m : Mem α} {out n w j J : Nat} (h : Allocated m out n) (hj : j < J)
    (hJ : J * w ≤ n) : Allocated m (out + j * w) w := by
  intro i hi
  rw [Nat.add_assoc]
  apply h
  have : (j + 1) * w ≤ J * w := Nat.mul_le_mul_right _ hj
  rw [Nat.succ_mul] at this
  omega

/-! ## Scalar loops -/

/-- State of a scalar argument at element `k`. -/
def sstate (A : Arith α) : SArg α → Nat → SArg α
  | .ptr p, k => .ptr (p + k)
  | .scalar c, _ => .scalar c
  | .ramp b s, k => .ramp (scalarRamp A b s k) s

theorem sstate_zero (A : Arith α) (a : SArg α) : sstate A a 0 = a := by cases a <;> rfl

theorem sstate_succ (A : Arith α) (a : SArg α) (k : Nat) :
    (sstate A a k).increment A = sstate A a (k + 1) := by
  cases a <;> rfl

theorem holds_of_safe {m : Mem α} {out p n i j : Nat} {x y : Nat → α} (h : Holds m p n x)
    (hs : SafePlacement out p n) (hij : i ≤ j) (hj : j < n) :
    overwrite m out i y (p + j) = some (x j) := by
  rw [overwrite_outside, h j hj]
  rcases hs with hs | hs <;> omega

theorem sget {A : Arith α} {m : Mem α} {out n k : Nat} {a : SArg α} {x y : Nat → α}
    (h : ScalarSupplies A m out n a x) (hk : k < n) :
    (sstate A a k).get (overwrite m out k y) = .ok (x k, overwrite m out k y) := by
  cases a with
  | ptr p => exact read_ok (holds_of_safe h.1 h.2 (Nat.le_refl k) hk)
  | scalar c => show Except.ok _ = _; rw [h k hk]
  | ramp b s => show Except.ok _ = _; rw [h k hk]

theorem performVec1_spec {f : α → Except Fault α} {m : Mem α} {out inp : Nat} {n : BitVec 32}
    {x y : Nat → α} (hn : 0 < n.toNat) (hout : Allocated m out n.toNat)
    (hin : Holds m inp n.toNat x) (hs : SafePlacement out inp n.toNat)
    (hf : ∀ i, i < n.toNat → f (x i) = .ok (y i)) :
    performVec1 f out inp n m = .ok ((), overwrite m out n.toNat y) := by
  unfold performVec1 applyOnVector1
  rw [doWhile_eq_iterM, tripCount_of_pos hn]
  have key := iterM_seq (body := fun (s : Nat × Nat) => do
      let x ← read (α := α) s.2
      let y ← Exec.lift (f x)
      write s.1 y
      pure (s.1 + 1, s.2 + 1))
    (fun k => (out + k, inp + k)) (fun k => overwrite m out k y) n.toNat (by
      intro k hk
      simp only
      rw [Exec.bind_ok (read_ok (holds_of_safe hin hs (Nat.le_refl k) hk)), hf k hk,
        Exec.lift_ok_bind, Exec.bind_ok (write_overwrite (hout k hk) rfl)]
      rfl)
  simp only [Nat.add_zero, overwrite_zero] at key
  rw [Exec.bind_ok key]
  rfl

theorem performVec2_spec {A : Arith α} {f : α → α → α} {m : Mem α} {out : Nat} {a1 a2 : SArg α}
    {n : BitVec 32} {x1 x2 : Nat → α} (hn : 0 < n.toNat) (hout : Allocated m out n.toNat)
    (h1 : ScalarSupplies A m out n.toNat a1 x1) (h2 : ScalarSupplies A m out n.toNat a2 x2) :
    performVec2 A f out a1 a2 n m
      = .ok ((), overwrite m out n.toNat (fun i => f (x1 i) (x2 i))) := by
  unfold performVec2 applyOnVector2
  rw [doWhile_eq_iterM, tripCount_of_pos hn]
  have key := iterM_seq (body := fun (s : Nat × SArg α × SArg α) => do
      let (out, in1, in2) := s
      let x1 ← in1.get
      let x2 ← in2.get
      write out (f x1 x2)
      pure (out + 1, in1.increment A, in2.increment A))
    (fun k => (out + k, sstate A a1 k, sstate A a2 k))
    (fun k => overwrite m out k (fun i => f (x1 i) (x2 i))) n.toNat (by
      intro k hk
      simp only
      rw [Exec.bind_ok (sget h1 hk), Exec.bind_ok (sget h2 hk),
        Exec.bind_ok (write_overwrite (y := fun i => f (x1 i) (x2 i)) (hout k hk) rfl)]
      simp only [sstate_succ, Exec.pure_run, Nat.add_assoc])
  simp only [Nat.add_zero, overwrite_zero, sstate_zero] at key
  rw [Exec.bind_ok key]
  rfl

theorem performVec3_spec {A : Arith α} {f : α → α → α → α} {m : Mem α} {out : Nat}
    {a1 a2 a3 : SArg α} {n : BitVec 32} {x1 x2 x3 : Nat → α} (hn : 0 < n.toNat)
    (hout : Allocated m out n.toNat)
    (h1 : ScalarSupplies A m out n.toNat a1 x1) (h2 : ScalarSupplies A m out n.toNat a2 x2)
    (h3 : ScalarSupplies A m out n.toNat a3 x3) :
    performVec3 A f out a1 a2 a3 n m
      = .ok ((), overwrite m out n.toNat (fun i => f (x1 i) (x2 i) (x3 i))) := by
  unfold performVec3 applyOnVector3
  rw [doWhile_eq_iterM, tripCount_of_pos hn]
  have key := iterM_seq (body := fun (s : Nat × SArg α × SArg α × SArg α) => do
      let (out, in1, in2, in3) := s
      let x1 ← in1.get
      let x2 ← in2.get
      let x3 ← in3.get
      write out (f x1 x2 x3)
      pure (out + 1, in1.increment A, in2.increment A, in3.increment A))
    (fun k => (out + k, sstate A a1 k, sstate A a2 k, sstate A a3 k))
    (fun k => overwrite m out k (fun i => f (x1 i) (x2 i) (x3 i))) n.toNat (by
      intro k hk
      simp only
      rw [Exec.bind_ok (sget h1 hk), Exec.bind_ok (sget h2 hk), Exec.bind_ok (sget h3 hk),
        Exec.bind_ok (write_overwrite (y := fun i => f (x1 i) (x2 i) (x3 i)) (hout k hk) rfl)]
      simp only [sstate_succ, Exec.pure_run, Nat.add_assoc])
  simp only [Nat.add_zero, overwrite_zero, sstate_zero] at key
  rw [Exec.bind_ok key]
  rfl

theorem performVec4_spec {A : Arith α} {f : α → α → α → α → α} {m : Mem α} {out : Nat}
    {a1 a2 a3 a4 : SArg α} {n : BitVec 32} {x1 x2 x3 x4 : Nat → α} (hn : 0 < n.toNat)
    (hout : Allocated m out n.toNat)
    (h1 : ScalarSupplies A m out n.toNat a1 x1) (h2 : ScalarSupplies A m out n.toNat a2 x2)
    (h3 : ScalarSupplies A m out n.toNat a3 x3) (h4 : ScalarSupplies A m out n.toNat a4 x4) :
    performVec4 A f out a1 a2 a3 a4 n m
      = .ok ((), overwrite m out n.toNat (fun i => f (x1 i) (x2 i) (x3 i) (x4 i))) := by
  unfold performVec4 applyOnVector4
  rw [doWhile_eq_iterM, tripCount_of_pos hn]
  have key := iterM_seq (body := fun (s : Nat × SArg α × SArg α × SArg α × SArg α) => do
      let (out, in1, in2, in3, in4) := s
      let x1 ← in1.get
      let x2 ← in2.get
      let x3 ← in3.get
      let x4 ← in4.get
      write out (f x1 x2 x3 x4)
      pure (out + 1, in1.increment A, in2.increment A, in3.increment A, in4.increment A))
    (fun k => (out + k, sstate A a1 k, sstate A a2 k, sstate A a3 k, sstate A a4 k))
    (fun k => overwrite m out k (fun i => f (x1 i) (x2 i) (x3 i) (x4 i))) n.toNat (by
      intro k hk
      simp only
      rw [Exec.bind_ok (sget h1 hk), Exec.bind_ok (sget h2 hk), Exec.bind_ok (sget h3 hk),
        Exec.bind_ok (sget h4 hk), Exec.bind_ok (write_overwrite (y := fun i => f (x1 i) (x2 i) (x3 i) (x4 i)) (hout k hk) rfl)]
      simp only [sstate_succ, Exec.pure_run, Nat.add_assoc])
  simp only [Nat.add_zero, overwrite_zero, sstate_zero] at key
  rw [Exec.bind_ok key]
  rfl

/-! ## SIMD loops -/
section simd
variable {I : VecImpl α} {al : Nat}

/-- State of a vector argument before register `j`. -/
def vstate (I : VecImpl α) : SArg α → Nat → VA I
  | .ptr p, j => .ptr (p + j * I.size)
  | .scalar c, _ => .scalar c
  | .ramp b s, j => .ramp (simdRampReg I b s j) (I.setVec (I.viaFloat (I.setSlope b s).2))

theorem vstate_zero (a : SArg α) : vstate I a 0 = wrapVectorArg I a := by
  cases a <;> simp [vstate, wrapVectorArg, simdRampReg]

theorem simdRamp_reg (b s : α) (j : Nat) (l : Fin I.size) :
    simdRamp I b s (j * I.size + l) = simdRampReg I b s j l := by
  have hp := I.size_pos
  have e1 : (j * I.size + l) / I.size = j := by
    rw [Nat.mul_comm, Nat.mul_add_div hp, Nat.div_eq_of_lt l.isLt, Nat.add_zero]
  have e2 : (j * I.size + l) % I.size = l := by
    rw [Nat.mul_comm, Nat.mul_add_mod, Nat.mod_eq_of_lt l.isLt]
  unfold simdRamp
  simp only [e1, e2]

/-- Register `j` of an argument. -/
def regOf (I : VecImpl α) (x : Nat → α) (j : Nat) : I.V := fun l => x (j * I.size + l)

theorem reg_index_lt {j J w : Nat} (l : Fin w) (hj : j < J) : j * w + l < J * w := by
  have : (j + 1) * w ≤ J * w := Nat.mul_le_mul_right _ hj
  rw [Nat.succ_mul] at this
  have := l.isLt
  omega

theorem consume_ok (hI : I.Lawful al) {m : Mem α} {out J i j : Nat} {a : SArg α} {x y : Nat → α}
    (h : SimdSupplies I al m out (J * I.size) a x) (hij : i ≤ j) (hj : j < J) :
    (vstate I a j).consume I (overwrite m out (i * I.size) y)
      = .ok ((regOf I x j, vstate I a (j + 1)), overwrite m out (i * I.size) y) := by
  cases a with
  | ptr p =>
    obtain ⟨hp, hh, hs⟩ := h
    have hload : I.loadAligned (p + j * I.size) (overwrite m out (i * I.size) y)
        = .ok (regOf I x j, overwrite m out (i * I.size) y) := by
      rw [hI.loadAligned _ (dvd_add_mul hp hI.al_dvd)]
      apply readVec_ok
      intro l
      rw [Nat.add_assoc]
      apply holds_of_safe hh hs
      · have := Nat.mul_le_mul_right I.size hij
        omega
      · exact reg_index_lt l hj
    show ((I.loadAligned (p + j * I.size)) >>= _) _ = _
    rw [Exec.bind_ok hload]
    simp only [Exec.pure_run, vstate, VArg.increment, Nat.succ_mul, Nat.add_assoc]
  | scalar c =>
    have : regOf I x j = I.setVec c := by
      funext l
      rw [hI.setVec]
      exact h _ (reg_index_lt l hj)
    rw [this]; rfl
  | ramp b s =>
    have : regOf I x j = simdRampReg I b s j := by
      funext l
      rw [← simdRamp_reg]
      exact h _ (reg_index_lt l hj)
    rw [this]; rfl

theorem mapM_ok {w : Nat} {f : α → Except Fault α} {a b : Vec α w} (h : ∀ i, f (a i) = .ok (b i)) :
    VecImpl.mapM f a = .ok b := by
  unfold VecImpl.mapM
  have hh : ∀ i, (f (a i)).toOption.isSome := fun i => by rw [h i]; rfl
  rw [dif_pos hh]
  congr 1
  funext i
  simp only [h i]
  rfl

theorem store_ok (hI : I.Lawful al) {m : Mem α} {out J : Nat} {y : Nat → α} (hal : al ∣ out)
    (hout : Allocated m out (J * I.size)) (j : Nat) (hj : j < J) :
    I.storeAligned (regOf I y j) (out + j * I.size) (overwrite m out (j * I.size) y)
      = .ok ((), overwrite m out ((j + 1) * I.size) y) := by
  rw [hI.storeAligned _ _ (dvd_add_mul hal hI.al_dvd), Nat.succ_mul]
  exact writeVec_overwrite (allocated_reg hout hj (Nat.le_refl _)) (fun l => rfl)

/-- The number of elements a SIMD call with run-time size `n` processes. -/
def processed (I : VecImpl α) (n : BitVec 32) : Nat := n.toNat / I.perLine * I.perLine

theorem Lawful.line_eq (hI : I.Lawful al) : ∃ k, I.perLine = k * I.size ∧ 0 < k := by
  obtain ⟨k, hk⟩ := hI.line_dvd
  refine ⟨k, by rw [hk, Nat.mul_comm], ?_⟩
  rcases Nat.eq_zero_or_pos k with h0 | h0
  · have := hI.line_pos
    rw [hk, h0] at this
    simp at this
  · exact h0

theorem simdLoopG_spec {σ β : Type} {consume : σ → Exec α (β × σ)} {f : β → Except Fault I.V}
    (hI : I.Lawful al) {m : Mem α} {out : Nat} {n : BitVec 32} {y : Nat → α}
    (s : Nat → σ) (v : Nat → β) (hn : I.perLine ≤ n.toNat) (hal : al ∣ out)
    (hout : Allocated m out (processed I n))
    (hc : ∀ J, processed I n = J * I.size → ∀ i j, i ≤ j → j < J →
      consume (s j) (overwrite m out (i * I.size) y)
        = .ok ((v j, s (j + 1)), overwrite m out (i * I.size) y))
    (hf : ∀ J, processed I n = J * I.size → ∀ j, j < J → f (v j) = .ok (regOf I y j)) :
    simdLoopG I consume f out (s 0) n m = .ok ((), overwrite m out (processed I n) y) := by
  obtain ⟨k, hk, hk0⟩ := Lawful.line_eq hI
  have hJ : processed I n = (n.toNat / I.perLine * k) * I.size := by
    unfold processed
    conv => lhs; rhs; rw [hk]
    rw [Nat.mul_assoc]
  have := simdLoopG_seq (I := I) (consume := consume) (f := f) (out := out) (s := s) (v := v)
    (r := regOf I y) (W := fun i => overwrite m out (i * I.size) y)
    (J := n.toNat / I.perLine * k) hk hk0 hI.line_small hn rfl (hc _ hJ) (hf _ hJ)
    (store_ok hI hal (by rw [← hJ]; exact hout))
  simp only [Nat.zero_mul, overwrite_zero] at this
  rw [this, hJ]

theorem runG_spec {σ β : Type} {consume : σ → Exec α (β × σ)} {f : β → Except Fault I.V}
    (hI : I.Lawful al) {m : Mem α} {out J : Nat} {y : Nat → α}
    (s : Nat → σ) (v : Nat → β) (hJ : 0 < J) (hal : al ∣ out)
    (hout : Allocated m out (J * I.size))
    (hc : ∀ i j, i ≤ j → j < J → consume (s j) (overwrite m out (i * I.size) y)
        = .ok ((v j, s (j + 1)), overwrite m out (i * I.size) y))
    (hf : ∀ j, j < J → f (v j) = .ok (regOf I y j)) :
    runG I consume f (J * I.size) out (s 0) m = .ok (s J, overwrite m out (J * I.size) y) := by
  have := runG_seq (I := I) (consume := consume) (f := f) (out := out) (s := s) (v := v)
    (r := regOf I y) (W := fun i => overwrite m out (i * I.size) y) (J := J) hc hf
    (store_ok hI hal hout) (k := J) (j := 0) hJ (by omega)
  simpa only [Nat.zero_mul, overwrite_zero, Nat.add_zero, Nat.zero_add] using this

theorem performVecSimd1_spec (hI : I.Lawful al) {f : α → Except Fault α} {m : Mem α}
    {out inp : Nat} {n : BitVec 32} {x y : Nat → α} (hn : I.perLine ≤ n.toNat) (hal : al ∣ out)
    (hout : Allocated m out (processed I n))
    (h1 : SimdSupplies I al m out (processed I n) (.ptr inp) x)
    (hf : ∀ i, i < processed I n → f (x i) = .ok (y i)) :
    performVecSimd1 I f out inp n m = .ok ((), overwrite m out (processed I n) y) := by
  unfold performVecSimd1
  rw [simdLoop1_eq, ← vstate_zero]
  apply simdLoopG_spec hI (vstate I (.ptr inp)) (regOf I x) hn hal hout
  · intro J hJ i j hij hj
    rw [hJ] at h1
    exact consume_ok hI h1 hij hj
  · intro J hJ j hj
    apply mapM_ok
    intro l
    apply hf
    rw [hJ]; exact reg_index_lt l hj

theorem performVecSimdN1_spec (hI : I.Lawful al) {f : α → Except Fault α} {m : Mem α}
    {out inp J : Nat} {x y : Nat → α} (hJ : 0 < J) (hal : al ∣ out)
    (hout : Allocated m out (J * I.size))
    (h1 : SimdSupplies I al m out (J * I.size) (.ptr inp) x)
    (hf : ∀ i, i < J * I.size → f (x i) = .ok (y i)) :
    performVecSimdN1 I f (J * I.size) out inp m = .ok ((), overwrite m out (J * I.size) y) := by
  unfold performVecSimdN1
  have h0 : (VArg.ptr inp : VA I) = vstate I (.ptr inp) 0 := by rw [vstate_zero]; rfl
  rw [run1_eq, h0, Exec.bind_ok (runG_spec hI (vstate I (.ptr inp)) (regOf I x) hJ hal hout
    (fun i j hij hj => consume_ok hI h1 hij hj)
    (fun j hj => mapM_ok (fun l => hf _ (reg_index_lt l hj))))]
  rfl

theorem consume2_ok (hI : I.Lawful al) {m : Mem α} {out J i j : Nat} {a1 a2 : SArg α}
    {x1 x2 y : Nat → α} (h1 : SimdSupplies I al m out (J * I.size) a1 x1)
    (h2 : SimdSupplies I al m out (J * I.size) a2 x2) (hij : i ≤ j) (hj : j < J) :
    consume2 I (vstate I a1 j, vstate I a2 j) (overwrite m out (i * I.size) y)
      = .ok (((regOf I x1 j, regOf I x2 j), (vstate I a1 (j + 1), vstate I a2 (j + 1))),
          overwrite m out (i * I.size) y) := by
  unfold consume2
  rw [Exec.bind_ok (consume_ok hI h1 hij hj)]
  simp only
  rw [Exec.bind_ok (consume_ok hI h2 hij hj)]
  rfl

theorem performVecSimd2_spec (hI : I.Lawful al) {f : α → α → α} {m : Mem α} {out : Nat}
    {a1 a2 : SArg α} {n : BitVec 32} {x1 x2 : Nat → α} (hn : I.perLine ≤ n.toNat) (hal : al ∣ out)
    (hout : Allocated m out (processed I n))
    (h1 : SimdSupplies I al m out (processed I n) a1 x1)
    (h2 : SimdSupplies I al m out (processed I n) a2 x2) :
    performVecSimd2 I f out a1 a2 n m
      = .ok ((), overwrite m out (processed I n) (fun i => f (x1 i) (x2 i))) := by
  unfold performVecSimd2
  rw [simdLoop2_eq, ← vstate_zero, ← vstate_zero]
  apply simdLoopG_spec hI (fun j => (vstate I a1 j, vstate I a2 j))
    (fun j => (regOf I x1 j, regOf I x2 j)) hn hal hout
  · intro J hJ i j hij hj
    rw [hJ] at h1 h2
    exact consume2_ok hI h1 h2 hij hj
  · intro J hJ j hj; rfl

theorem performVecSimdN2_spec (hI : I.Lawful al) {f : α → α → α} {m : Mem α} {out J : Nat}
    {a1 a2 : SArg α} {x1 x2 : Nat → α} (hJ : 0 < J) (hal : al ∣ out)
    (hout : Allocated m out (J * I.size))
    (h1 : SimdSupplies I al m out (J * I.size) a1 x1)
    (h2 : SimdSupplies I al m out (J * I.size) a2 x2) :
    performVecSimdN2 I f (J * I.size) out a1 a2 m
      = .ok ((), overwrite m out (J * I.size) (fun i => f (x1 i) (x2 i))) := by
  unfold performVecSimdN2
  rw [run2_eq, ← vstate_zero, ← vstate_zero, Exec.bind_ok (runG_spec hI
    (fun j => (vstate I a1 j, vstate I a2 j)) (fun j => (regOf I x1 j, regOf I x2 j)) hJ hal hout
    (y := fun i => f (x1 i) (x2 i)) (fun i j hij hj => consume2_ok hI h1 h2 hij hj)
    (fun j hj => rfl))]
  rfl

theorem consume3_ok (hI : I.Lawful al) {m : Mem α} {out J i j : Nat} {a1 a2 a3 : SArg α}
    {x1 x2 x3 y : Nat → α} (h1 : SimdSupplies I al m out (J * I.size) a1 x1)
    (h2 : SimdSupplies I al m out (J * I.size) a2 x2)
    (h3 : SimdSupplies I al m out (J * I.size) a3 x3) (hij : i ≤ j) (hj : j < J) :
    consume3 I (vstate I a1 j, vstate I a2 j, vstate I a3 j) (overwrite m out (i * I.size) y)
      = .ok (((regOf I x1 j, regOf I x2 j, regOf I x3 j),
          (vstate I a1 (j + 1), vstate I a2 (j + 1), vstate I a3 (j + 1))),
          overwrite m out (i * I.size) y) := by
  unfold consume3
  rw [Exec.bind_ok (consume_ok hI h1 hij hj)]
  simp only
  rw [Exec.bind_ok (consume_ok hI h2 hij hj)]
  simp only
  rw [Exec.bind_ok (consume_ok hI h3 hij hj)]
  rfl

theorem performVecSimd3_spec (hI : I.Lawful al) {f : α → α → α → α} {m : Mem α} {out : Nat}
    {a1 a2 a3 : SArg α} {n : BitVec 32} {x1 x2 x3 : Nat → α} (hn : I.perLine ≤ n.toNat)
    (hal : al ∣ out) (hout : Allocated m out (processed I n))
    (h1 : SimdSupplies I al m out (processed I n) a1 x1)
    (h2 : SimdSupplies I al m out (processed I n) a2 x2)
    (h3 : SimdSupplies I al m out (processed I n) a3 x3) :
    performVecSimd3 I f out a1 a2 a3 n m
      = .ok ((), overwrite m out (processed I n) (fun i => f (x1 i) (x2 i) (x3 i))) := by
  unfold performVecSimd3
  rw [simdLoop3_eq, ← vstate_zero, ← vstate_zero, ← vstate_zero]
  apply simdLoopG_spec hI (fun j => (vstate I a1 j, vstate I a2 j, vstate I a3 j))
    (fun j => (regOf I x1 j, regOf I x2 j, regOf I x3 j)) hn hal hout
  · intro J hJ i j hij hj
    rw [hJ] at h1 h2 h3
    exact consume3_ok hI h1 h2 h3 hij hj
  · intro J hJ j hj; rfl

theorem performVecSimdN3_spec (hI : I.Lawful al) {f : α → α → α → α} {m : Mem α} {out J : Nat}
    {a1 a2 a3 : SArg α} {x1 x2 x3 : Nat → α} (hJ : 0 < J) (hal : al ∣ out)
    (hout : Allocated m out (J * I.size))
    (h1 : SimdSupplies I al m out (J * I.size) a1 x1)
    (h2 : SimdSupplies I al m out (J * I.size) a2 x2)
    (h3 : SimdSupplies I al m out (J * I.size) a3 x3) :
    performVecSimdN3 I f (J * I.size) out a1 a2 a3 m
      = .ok ((), overwrite m out (J * I.size) (fun i => f (x1 i) (x2 i) (x3 i))) := by
  unfold performVecSimdN3
  rw [run3_eq, ← vstate_zero, ← vstate_zero, ← vstate_zero, Exec.bind_ok (runG_spec hI
    (fun j => (vstate I a1 j, vstate I a2 j, vstate I a3 j))
    (fun j => (regOf I x1 j, regOf I x2 j, regOf I x3 j)) hJ hal hout
    (y := fun i => f (x1 i) (x2 i) (x3 i))
    (fun i j hij hj => consume3_ok hI h1 h2 h3 hij hj) (fun j hj => rfl))]
  rfl

theorem consume4_ok (hI : I.Lawful al) {m : Mem α} {out J i j : Nat} {a1 a2 a3 a4 : SArg α}
    {x1 x2 x3 x4 y : Nat → α} (h1 : SimdSupplies I al m out (J * I.size) a1 x1)
    (h2 : SimdSupplies I al m out (J * I.size) a2 x2)
    (h3 : SimdSupplies I al m out (J * I.size) a3 x3)
    (h4 : SimdSupplies I al m out (J * I.size) a4 x4) (hij : i ≤ j) (hj : j < J) :
    consume4 I (vstate I a1 j, vstate I a2 j, vstate I a3 j, vstate I a4 j)
        (overwrite m out (i * I.size) y)
      = .ok (((regOf I x1 j, regOf I x2 j, regOf I x3 j, regOf I x4 j),
          (vstate I a1 (j + 1), vstate I a2 (j + 1), vstate I a3 (j + 1), vstate I a4 (j + 1))),
          overwrite m out (i * I.size) y) := by
  unfold consume4
  rw [Exec.bind_ok (consume_ok hI h1 hij hj)]
  simp only
  rw [Exec.bind_ok (consume_ok hI h2 hij hj)]
  simp only
  rw [Exec.bind_ok (consume_ok hI h3 hij hj)]
  simp only
  rw [Exec.bind_ok (consume_ok hI h4 hij hj)]
  rfl

theorem performVecSimd4_spec (hI : I.Lawful al) {f : α → α → α → α → α} {m : Mem α} {out : Nat}
    {a1 a2 a3 a4 : SArg α} {n : BitVec 32} {x1 x2 x3 x4 : Nat → α} (hn : I.perLine ≤ n.toNat)
    (hal : al ∣ out) (hout : Allocated m out (processed I n))
    (h1 : SimdSupplies I al m out (processed I n) a1 x1)
    (h2 : SimdSupplies I al m out (processed I n) a2 x2)
    (h3 : SimdSupplies I al m out (processed I n) a3 x3)
    (h4 : SimdSupplies I al m out (processed I n) a4 x4) :
    performVecSimd4 I f out a1 a2 a3 a4 n m
      = .ok ((), overwrite m out (processed I n) (fun i => f (x1 i) (x2 i) (x3 i) (x4 i))) := by
  unfold performVecSimd4
  rw [simdLoop4_eq, ← vstate_zero, ← vstate_zero, ← vstate_zero, ← vstate_zero]
  apply simdLoopG_spec hI (fun j => (vstate I a1 j, vstate I a2 j, vstate I a3 j, vstate I a4 j))
    (fun j => (regOf I x1 j, regOf I x2 j, regOf I x3 j, regOf I x4 j)) hn hal hout
  · intro J hJ i j hij hj
    rw [hJ] at h1 h2 h3 h4
    exact consume4_ok hI h1 h2 h3 h4 hij hj
  · intro J hJ j hj; rfl

theorem performVecSimdN4_spec (hI : I.Lawful al) {f : α → α → α → α → α} {m : Mem α}
    {out J : Nat} {a1 a2 a3 a4 : SArg α} {x1 x2 x3 x4 : Nat → α} (hJ : 0 < J) (hal : al ∣ out)
    (hout : Allocated m out (J * I.size))
    (h1 : SimdSupplies I al m out (J * I.size) a1 x1)
    (h2 : SimdSupplies I al m out (J * I.size) a2 x2)
    (h3 : SimdSupplies I al m out (J * I.size) a3 x3)
    (h4 : SimdSupplies I al m out (J * I.size) a4 x4) :
    performVecSimdN4 I f (J * I.size) out a1 a2 a3 a4 m
      = .ok ((), overwrite m out (J * I.size) (fun i => f (x1 i) (x2 i) (x3 i) (x4 i))) := by
  unfold performVecSimdN4
  rw [run4_eq, ← vstate_zero, ← vstate_zero, ← vstate_zero, ← vstate_zero,
    Exec.bind_ok (runG_spec hI
      (fun j => (vstate I a1 j, vstate I a2 j, vstate I a3 j, vstate I a4 j))
      (fun j => (regOf I x1 j, regOf I x2 j, regOf I x3 j, regOf I x4 j)) hJ hal hout
      (y := fun i => f (x1 i) (x2 i) (x3 i) (x4 i))
      (fun i j hij hj => consume4_ok hI h1 h2 h3 h4 hij hj) (fun j hj => rfl))]
  rfl

end simd

end Nova
