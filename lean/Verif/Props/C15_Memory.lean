import Verif.Lemmas.CachelineFaults
import Verif.Props.C06_Footprint
import Verif.Props.C13_Ramps

/-!
# C15-C20: filling, copying and accumulating buffers (simd_memory.hpp)

`overwrite m p n y` is the memory `m` with `p[i] = y i` for `i < n` and nothing else changed.
-/

namespace Nova
open Spec
variable {α : Type}

/-! ## C15 -/

/-- `zerovec(dest, n)`, any `n`. -/
theorem C15_zerovec (E : Env α) {m : Mem α} {dest : Nat} {n : BitVec 32}
    (hout : Allocated m dest n.toNat) :
    zerovec E dest n m = .ok ((), overwrite m dest n.toNat fun _ => E.S.zero) := by
  unfold zerovec memsetZero
  have h : m.allocated dest n.toNat := fun i => hout i i.isLt
  rw [if_pos h]
  rfl

/-- `setvec(dest, f, n)`. -/
theorem C15_setvec (E : Env α) {m : Mem α} {dest : Nat} {f : α} {n : BitVec 32} (hn : 0 < n.toNat)
    (hout : Allocated m dest n.toNat) :
    setvec E dest f n m = .ok ((), overwrite m dest n.toNat fun _ => f) := by
  unfold setvec
  rw [Exec.bind_ok (assertNonzero_ok hn m), doWhile_eq_iterM, tripCount_of_pos hn]
  have := iterM_seq (body := fun dest => do
      write dest f
      pure (dest + 1)) (fun k => dest + k) (fun k => overwrite m dest k fun _ => f) n.toNat (by
        intro k hk
        rw [Exec.bind_ok (write_overwrite (y := fun _ => f) (hout k hk) rfl)]
        rfl)
  simp only [overwrite_zero, Nat.add_zero] at this
  rw [Exec.bind_ok this]
  rfl

/-- An assertion stops `setvec(dest, f, 0)` in builds without `NDEBUG`. -/
theorem C15_setvec_empty (E : Env α) (h : E.ndebug = false) (dest : Nat) (f : α) (m : Mem α) :
    setvec E dest f 0 m = .error .assertion := by
  unfold setvec assertNonzero
  rw [if_pos ⟨rfl, h⟩]
  rfl

theorem setvec_body_ok (t : Target) (E : Env α) {aligned : Bool} {m : Mem α} {dest n : Nat} {f : α}
    {val : (t.vec E).V} (hal : t.AddrOk aligned dest) (hout : Allocated m dest n)
    (hval : ∀ l, val l = f) (j : Nat) (hj : (j + 1) * (t.vec E).size ≤ n) :
    setvecBody (t.vec E) aligned dest val (j * (t.vec E).size) ()
      (overwrite m dest (j * (t.vec E).size) fun _ => f)
      = .ok ((), overwrite m dest ((j + 1) * (t.vec E).size) fun _ => f) :=
  storeReg (store := storeAlignedIf (t.vec E) aligned) (t.store_if E hal val) hout hj
    fun l => hval l

theorem detailSetvecSimd_ok (t : Target) (E : Env α) {aligned : Bool} {m : Mem α} {dest : Nat} {f : α}
    {n : BitVec 32} {val : (t.vec E).V} (hn : 0 < n.toNat) (hmul : t.perLine ∣ n.toNat)
    (hal : t.AddrOk aligned dest) (hout : Allocated m dest n.toNat) (hval : ∀ l, val l = f) :
    detailSetvecSimd (t.vec E) aligned dest val n m
      = .ok ((), overwrite m dest n.toNat fun _ => f) := by
  have hmul' : (t.vec E).perLine ∣ n.toNat := by rw [t.vec_perLine]; exact hmul
  have := cacheline_unroll (t.lawful E) (body := setvecBody (t.vec E) aligned dest val)
    (R := fun _ => ()) (W := fun j => overwrite m dest (j * (t.vec E).size) fun _ => f) hn hmul'
    (fun j hj => setvec_body_ok t E hal hout hval j hj)
  simp only [Nat.zero_mul, overwrite_zero, div_mul_size (line_size_dvd (t.lawful E) hmul')] at this
  exact this

theorem detailSetvecN_ok (t : Target) (E : Env α) {aligned : Bool} {m : Mem α} {dest N : Nat} {f : α}
    {val : (t.vec E).V} (hmul : t.size ∣ N)
    (hal : t.AddrOk aligned dest) (hout : Allocated m dest N) (hval : ∀ l, val l = f) :
    detailSetvecN (t.vec E) aligned N dest val m = .ok ((), overwrite m dest N fun _ => f) := by
  have hmul' : (t.vec E).size ∣ N := by rw [t.vec_size]; exact hmul
  have := unroll_all (body := setvecBody (t.vec E) aligned dest val)
    (R := fun _ => ()) (W := fun j => overwrite m dest (j * (t.vec E).size) fun _ => f) hmul'
    (fun j hj => setvec_body_ok t E hal hout hval j hj)
  simp only [Nat.zero_mul, overwrite_zero, div_mul_size hmul'] at this
  exact this

/-- `setvec_simd` (`aligned`) and `setvec_na_simd` (not `aligned`). -/
theorem C15_setvec_simd (t : Target) (E : Env α) (aligned : Bool) {m : Mem α} {dest : Nat} {f : α}
    {n : BitVec 32} (hn : 0 < n.toNat) (hmul : t.perLine ∣ n.toNat) (hal : t.AddrOk aligned dest)
    (hout : Allocated m dest n.toNat) :
    setvecSimd (t.vec E) aligned dest f n m = .ok ((), overwrite m dest n.toNat fun _ => f) :=
  detailSetvecSimd_ok t E hn hmul hal hout fun l => (t.lawful E).setVec f l

/-- `setvec_simd<N>` and `setvec_na_simd<N>`. -/
theorem C15_setvec_simd_n (t : Target) (E : Env α) (aligned : Bool) {m : Mem α} {dest N : Nat} {f : α}
    (hmul : t.size ∣ N) (hal : t.AddrOk aligned dest) (hout : Allocated m dest N) :
    setvecSimdN (t.vec E) aligned N dest f m = .ok ((), overwrite m dest N fun _ => f) :=
  detailSetvecN_ok t E hmul hal hout fun l => (t.lawful E).setVec f l

/-- `zerovec_simd` and `zerovec_na_simd`. -/
theorem C15_zerovec_simd (t : Target) (E : Env α) (aligned : Bool) {m : Mem α} {dest : Nat}
    {n : BitVec 32} (hn : 0 < n.toNat) (hmul : t.perLine ∣ n.toNat) (hal : t.AddrOk aligned dest)
    (hout : Allocated m dest n.toNat) :
    zerovecSimd (t.vec E) aligned dest n m = .ok ((), overwrite m dest n.toNat fun _ => E.L.zero) :=
  detailSetvecSimd_ok t E hn hmul hal hout fun l => by rw [(t.lawful E).clear, t.vec_lane]

/-- `zerovec_simd<N>` and `zerovec_na_simd<N>`. -/
theorem C15_zerovec_simd_n (t : Target) (E : Env α) (aligned : Bool) {m : Mem α} {dest N : Nat}
    (hmul : t.size ∣ N) (hal : t.AddrOk aligned dest) (hout : Allocated m dest N) :
    zerovecSimdN (t.vec E) aligned N dest m = .ok ((), overwrite m dest N fun _ => E.L.zero) :=
  detailSetvecN_ok t E hmul hal hout fun l => by rw [(t.lawful E).clear, t.vec_lane]

/-! ## C16, C17 -/

section ring
variable [CommRing α]

/-- `set_slope_vec(dest, f, slope, n)`. -/
theorem C16_scalar (E : Env α) (hE : E.Exact) {m : Mem α} {dest : Nat} {f slope : α} {n : BitVec 32}
    (hn : 0 < n.toNat) (hout : Allocated m dest n.toNat) :
    setSlopeVec E dest f slope n m = .ok ((), overwrite m dest n.toNat fun i => f + i * slope) := by
  unfold setSlopeVec
  rw [Exec.bind_ok (assertNonzero_ok hn m), doWhile_eq_iterM, tripCount_of_pos hn]
  have := iterM_seq (body := fun (s : Nat × α) => do
      let (dest, f) := s
      write dest f
      pure (dest + 1, E.S.add f slope)) (fun k => (dest + k, f + k * slope))
      (fun k => overwrite m dest k fun i => f + i * slope) n.toNat (by
        intro k hk
        simp only
        rw [Exec.bind_ok (write_overwrite (y := fun i => f + i * slope) (hout k hk) rfl)]
        simp only [Exec.pure_run, hE.S.add]
        push_cast
        rw [add_mul, one_mul, add_assoc, add_assoc])
  simp only [overwrite_zero, Nat.cast_zero, zero_mul, add_zero] at this
  rw [Exec.bind_ok this]
  rfl

/-- `set_exp_vec(dest, f, curve, n)`. -/
theorem C17_scalar (E : Env α) (hE : E.Exact) {m : Mem α} {dest : Nat} {f curve : α} {n : BitVec 32}
    (hn : 0 < n.toNat) (hout : Allocated m dest n.toNat) :
    setExpVec E dest f curve n m = .ok ((), overwrite m dest n.toNat fun i => f * curve ^ i) := by
  unfold setExpVec
  rw [Exec.bind_ok (assertNonzero_ok hn m), doWhile_eq_iterM, tripCount_of_pos hn]
  have := iterM_seq (body := fun (s : Nat × α) => do
      let (dest, f) := s
      write dest f
      pure (dest + 1, E.S.mul f curve)) (fun k => (dest + k, f * curve ^ k))
      (fun k => overwrite m dest k fun i => f * curve ^ i) n.toNat (by
        intro k hk
        simp only
        rw [Exec.bind_ok (write_overwrite (y := fun i => f * curve ^ i) (hout k hk) rfl)]
        simp only [Exec.pure_run, hE.S.mul]
        rw [pow_succ, mul_assoc, add_assoc])
  simp only [overwrite_zero, Nat.add_zero, pow_zero, mul_one] at this
  rw [Exec.bind_ok this]
  rfl

/-- `set_slope_vec_simd(dest, f, slope, n)`. -/
theorem C16_simd (t : Target) (E : Env α) (hE : E.Exact) {m : Mem α} {dest : Nat} {f slope : α}
    {n : BitVec 32} (hn : 0 < n.toNat) (hmul : t.perLine ∣ n.toNat) (hal : t.align ∣ dest)
    (hout : Allocated m dest n.toNat) :
    setSlopeVecSimd E (t.vec E) dest f slope n m
      = .ok ((), overwrite m dest n.toNat fun i => f + i * slope) := by
  have hmul' : (t.vec E).perLine ∣ n.toNat := by rw [t.vec_perLine]; exact hmul
  have hlit : E.S.lit (t.vec E).size = ((t.vec E).size : α) := hE.S.lit_nat _
  have := cacheline_unroll (t.lawful E)
    (body := slopeBody (t.vec E) dest ((t.vec E).setVec (E.S.mul (E.S.lit (t.vec E).size) slope)))
    (R := fun j l => f + ((j * (t.vec E).size + l : Nat) : α) * slope)
    (W := fun j => overwrite m dest (j * (t.vec E).size) fun i => f + i * slope) hn hmul' (by
      intro j hj
      unfold slopeBody
      rw [Exec.bind_ok (storeReg (y := fun i => f + (i : α) * slope)
        ((t.lawful E).storeAligned _ _ (aligned_reg (t.lawful E) hal)) hout hj fun l => rfl)]
      simp only [Exec.pure_run]
      congr 2
      funext l
      unfold VecImpl.zip
      rw [(t.lawful E).setVec, t.vec_lane, hE.L.add, hE.S.mul, hlit]
      push_cast; ring)
  unfold setSlopeVecSimd
  have h0 : ((t.vec E).setSlope f slope).1
      = fun (l : Fin (t.vec E).size) => f + ((0 * (t.vec E).size + l : Nat) : α) * slope := by
    funext l
    rw [(C31_set_slope t E hE f slope).1 l]; simp
  rw [h0]
  simp only [Nat.zero_mul, overwrite_zero, div_mul_size (line_size_dvd (t.lawful E) hmul')] at this ⊢
  rw [Exec.bind_ok this]
  rfl

theorem powI_eq {A : Arith α} (hA : A.Exact) (b : α) : ∀ k, powI A b k = b ^ k
  | 0 => by simp [powI, hA.one]
  | 1 => by simp [powI]
  | k + 2 => by rw [powI, hA.mul, powI_eq hA b (k + 1)]; ring

/-- `set_exp_vec_simd(dest, f, curve, n)`. -/
theorem C17_simd (t : Target) (E : Env α) (hE : E.Exact) {m : Mem α} {dest : Nat} {f curve : α}
    {n : BitVec 32} (hn : 0 < n.toNat) (hmul : t.perLine ∣ n.toNat) (hal : t.align ∣ dest)
    (hout : Allocated m dest n.toNat) :
    setExpVecSimd E (t.vec E) dest f curve n m
      = .ok ((), overwrite m dest n.toNat fun i => f * curve ^ i) := by
  have hmul' : (t.vec E).perLine ∣ n.toNat := by rw [t.vec_perLine]; exact hmul
  have := cacheline_unroll (t.lawful E)
    (body := expBody (t.vec E) dest ((t.vec E).setVec (powI E.S curve (t.vec E).size)))
    (R := fun j l => f * curve ^ (j * (t.vec E).size + l))
    (W := fun j => overwrite m dest (j * (t.vec E).size) fun i => f * curve ^ i) hn hmul' (by
      intro j hj
      unfold expBody
      rw [Exec.bind_ok (storeReg (y := fun i => f * curve ^ i)
        ((t.lawful E).storeAligned _ _ (aligned_reg (t.lawful E) hal)) hout hj fun l => rfl)]
      simp only [Exec.pure_run]
      congr 2
      funext l
      unfold VecImpl.zip
      rw [(t.lawful E).setVec, t.vec_lane, hE.L.mul, powI_eq hE.S, mul_assoc, ← pow_add]
      congr 2
      rw [Nat.succ_mul]; omega)
  unfold setExpVecSimd
  have h0 : ((t.vec E).setExp f curve).1 = fun (l : Fin (t.vec E).size) => f * curve ^ (0 * (t.vec E).size + l) := by
    funext l
    rw [(C31_set_exp t E hE f curve).1 l]; simp
  rw [h0]
  simp only [Nat.zero_mul, overwrite_zero, div_mul_size (line_size_dvd (t.lawful E) hmul')] at this ⊢
  rw [Exec.bind_ok this]
  rfl

end ring

/-! ## C18, C19 -/

/-- `copyvec(dest, src, n)` copies disjoint buffers. -/
theorem C18_copyvec {m : Mem α} {dest src : Nat} {n : BitVec 32} {x : Nat → α}
    (hsrc : Holds m src n.toNat x) (hout : Allocated m dest n.toNat)
    (hdis : dest + n.toNat ≤ src ∨ src + n.toNat ≤ dest) :
    copyvec dest src n m = .ok ((), overwrite m dest n.toNat x) := by
  unfold copyvec memcpy
  rw [if_pos ⟨fun i => hout i i.isLt, fun i => by rw [hsrc i i.isLt]; rfl⟩, if_pos (Or.inr hdis)]
  congr 2
  funext a
  unfold overwrite
  by_cases h : dest ≤ a ∧ a < dest + n.toNat
  · rw [if_pos h, if_pos h, hsrc _ (by omega)]
  · rw [if_neg h, if_neg h]

/-- The register that holds vector `j` of the source.  After the last vector of the source it is
whatever is found there. -/
def copyReg (w : Nat) (m : Mem α) (dest src n : Nat) (x : Nat → α) (j : Nat) : Vec α w := fun l =>
  if (j + 1) * w ≤ n then x (j * w + l)
  else (overwrite m dest (n - w) x (src + (j * w + l))).getD (x 0)

section
variable (t : Target) (E : Env α) (v : CopyVariant) {m : Mem α} {dest src n : Nat} {x : Nat → α}

theorem copyLoad_ok (hs : t.AddrOk v.srcAligned src) (hsrc : Holds m src n x)
    (hsafe : SafePlacement dest src n) {i j : Nat} (hij : i ≤ j)
    (hj : (j + 1) * (t.vec E).size ≤ n) :
    loadAlignedIf (t.vec E) v.srcAligned (src + j * (t.vec E).size)
      (overwrite m dest (i * (t.vec E).size) x)
      = .ok (copyReg _ m dest src n x j, overwrite m dest (i * (t.vec E).size) x) := by
  rw [t.load_if E hs]
  apply readVec_ok
  intro l
  have hl := l.isLt
  have e : (j + 1) * (t.vec E).size = j * (t.vec E).size + (t.vec E).size := Nat.succ_mul _ _
  have hle : i * (t.vec E).size ≤ j * (t.vec E).size := Nat.mul_le_mul_right _ hij
  unfold copyReg
  rw [if_pos hj, overwrite_outside, Nat.add_assoc]
  · exact hsrc _ (by omega)
  · unfold SafePlacement at hsafe
    omega

theorem copyLoad_last (hs : t.AddrOk v.srcAligned src)
    (hread : Allocated m src (n + t.size)) {j : Nat} (hj : (j + 1) * (t.vec E).size = n) :
    loadAlignedIf (t.vec E) v.srcAligned (src + (j + 1) * (t.vec E).size)
      (overwrite m dest (j * (t.vec E).size) x)
      = .ok (copyReg _ m dest src n x (j + 1), overwrite m dest (j * (t.vec E).size) x) := by
  rw [t.load_if E hs]
  apply readVec_ok
  intro l
  have hl := l.isLt
  have hsz := t.vec_size E
  have e : (j + 1) * (t.vec E).size = j * (t.vec E).size + (t.vec E).size := Nat.succ_mul _ _
  have e2 : (j + 1 + 1) * (t.vec E).size = (j + 1) * (t.vec E).size + (t.vec E).size :=
    Nat.succ_mul _ _
  have e3 : n - (t.vec E).size = j * (t.vec E).size := by omega
  unfold copyReg
  have hp := (t.vec E).size_pos
  rw [if_neg (by omega), e3, Nat.add_assoc]
  have : (overwrite m dest (j * (t.vec E).size) x (src + ((j + 1) * (t.vec E).size + l))).isSome :=
    overwrite_alloc (hread _ (by omega))
  rw [Option.isSome_iff_exists] at this
  obtain ⟨a, ha⟩ := this
  rw [ha]; rfl

theorem copyvecBody_ok (hs : t.AddrOk v.srcAligned src) (hd : t.AddrOk v.dstAligned dest)
    (hmul : (t.vec E).size ∣ n)
    (hsrc : Holds m src n x) (hread : Allocated m src (n + t.size)) (hout : Allocated m dest n)
    (hsafe : SafePlacement dest src n) (j : Nat) (hj : (j + 1) * (t.vec E).size ≤ n) :
    copyvecBody (t.vec E) v.srcAligned v.dstAligned dest src (j * (t.vec E).size)
      (copyReg _ m dest src n x j) (overwrite m dest (j * (t.vec E).size) x)
      = .ok (copyReg _ m dest src n x (j + 1), overwrite m dest ((j + 1) * (t.vec E).size) x) := by
  have e : (j + 1) * (t.vec E).size = j * (t.vec E).size + (t.vec E).size := Nat.succ_mul _ _
  have hrd : loadAlignedIf (t.vec E) v.srcAligned (src + (t.vec E).size + j * (t.vec E).size)
      (overwrite m dest (j * (t.vec E).size) x)
      = .ok (copyReg _ m dest src n x (j + 1), overwrite m dest (j * (t.vec E).size) x) := by
    have e2 : src + (t.vec E).size + j * (t.vec E).size = src + (j + 1) * (t.vec E).size := by omega
    rw [e2]
    by_cases hlast : (j + 1) * (t.vec E).size = n
    · exact copyLoad_last t E v hs hread hlast
    · refine copyLoad_ok t E v hs hsrc hsafe (by omega) ?_
      obtain ⟨k, hk⟩ := hmul
      have hp := (t.vec E).size_pos
      rw [Nat.mul_comm] at hk
      rw [hk] at hj hlast ⊢
      have : j + 1 ≤ k := Nat.le_of_mul_le_mul_right hj hp
      have h2 : j + 1 ≠ k := fun h => hlast (by rw [h])
      exact Nat.mul_le_mul_right _ (by omega)
  unfold copyvecBody
  rw [Exec.bind_ok hrd, Exec.bind_ok (storeReg (store := storeAlignedIf (t.vec E) v.dstAligned)
    (y := x) (t.store_if E hd _) hout hj fun l => by unfold copyReg; rw [if_pos hj])]
  rfl

theorem copyvecRun_ok (hs : t.AddrOk v.srcAligned src) (hd : t.AddrOk v.dstAligned dest)
    (hmul : (t.vec E).size ∣ n)
    (hsrc : Holds m src n x) (hread : Allocated m src (n + t.size)) (hout : Allocated m dest n)
    (hsafe : SafePlacement dest src n) {k j : Nat} (hk : 0 < k)
    (hj : (j + k) * (t.vec E).size ≤ n) :
    copyvecRun (t.vec E) v.srcAligned v.dstAligned dest src (k * (t.vec E).size) (j * (t.vec E).size)
      () (overwrite m dest (j * (t.vec E).size) x)
      = .ok ((), overwrite m dest ((j + k) * (t.vec E).size) x) := by
  have hp : 0 < k * (t.vec E).size := Nat.mul_pos hk (t.vec E).size_pos
  have hj1 : (j + 1) * (t.vec E).size ≤ n :=
    Nat.le_trans (Nat.mul_le_mul_right _ (by omega)) hj
  have hrd := copyLoad_ok t E v hs hsrc hsafe (Nat.le_refl j) hj1 (dest := dest)
  unfold copyvecRun
  rw [if_neg (by omega), Exec.bind_ok hrd]
  have := unrollTmpl_seq (I := t.vec E)
    (body := copyvecBody (t.vec E) v.srcAligned v.dstAligned dest src)
    (R := copyReg _ m dest src n x)
    (W := fun j => overwrite m dest (j * (t.vec E).size) x) (J := j + k) (by
      intro i hi
      apply copyvecBody_ok t E v hs hd hmul hsrc hread hout hsafe
      exact Nat.le_trans (Nat.mul_le_mul_right _ hi) hj) k j (Nat.le_refl _)
  rw [Exec.bind_ok this]
  rfl

end

/-- All SIMD copy functions, run-time size.  `hread`: one more vector has to be readable after the
source (see C19). -/
theorem C18_copyvec_simd_partial (t : Target) (E : Env α) (v : CopyVariant) {m : Mem α}
    {dest src : Nat} {n : BitVec 32} {x : Nat → α} (hn : 0 < n.toNat) (hmul : t.perLine ∣ n.toNat)
    (hs : t.AddrOk v.srcAligned src) (hd : t.AddrOk v.dstAligned dest)
    (hsrc : Holds m src n.toNat x) (hread : Allocated m src (n.toNat + t.size))
    (hout : Allocated m dest n.toNat) (hsafe : SafePlacement dest src n.toNat) :
    copyvecSimd' (t.vec E) v dest src n m = .ok ((), overwrite m dest n.toNat x) := by
  have hmul' : (t.vec E).perLine ∣ n.toNat := by rw [t.vec_perLine]; exact hmul
  have hmulS := line_size_dvd (t.lawful E) hmul'
  obtain ⟨k, hpl, hk⟩ := Lawful.line_eq (t.lawful E)
  obtain ⟨q, hq⟩ := hmul'
  have hq' : n.toNat / (t.vec E).perLine = q := by
    rw [hq, Nat.mul_div_cancel_left _ (t.lawful E).line_pos]
  have := cachelineLoop_seq (I := t.vec E)
    (run := copyvecRun (t.vec E) v.srcAligned v.dstAligned dest src (t.vec E).perLine)
    (R := fun _ => ()) (W := fun j => overwrite m dest (j * (t.vec E).size) x)
    (J := n.toNat / (t.vec E).perLine * k) (n := n)
    hpl hk (t.lawful E).line_small (by rw [hq]; exact Nat.le_mul_of_pos_right _ (by
      rcases Nat.eq_zero_or_pos q with h | h
      · rw [h] at hq; omega
      · exact h)) rfl (by
      intro j hj
      rw [hpl]
      apply copyvecRun_ok t E v hs hd hmulS hsrc hread hout hsafe hk
      rw [hq'] at hj
      calc (j + k) * (t.vec E).size ≤ q * k * (t.vec E).size := Nat.mul_le_mul_right _ hj
        _ = n.toNat := by rw [hq, hpl, Nat.mul_assoc, Nat.mul_comm])
  simp only [Nat.zero_mul, overwrite_zero] at this
  rw [hq', Nat.mul_assoc, ← hpl, Nat.mul_comm, ← hq] at this
  exact this

/-- All SIMD copy functions, compile-time size. -/
theorem C18_copyvec_simd_n_partial (t : Target) (E : Env α) (v : CopyVariant) {m : Mem α}
    {dest src N : Nat} {x : Nat → α} (hN : 0 < N) (hmul : t.size ∣ N)
    (hs : t.AddrOk v.srcAligned src) (hd : t.AddrOk v.dstAligned dest)
    (hsrc : Holds m src N x) (hread : Allocated m src (N + t.size)) (hout : Allocated m dest N)
    (hsafe : SafePlacement dest src N) :
    copyvecSimdN' (t.vec E) v N dest src m = .ok ((), overwrite m dest N x) := by
  have hmul' : (t.vec E).size ∣ N := by rw [t.vec_size]; exact hmul
  obtain ⟨k, hk⟩ := id hmul'
  have hk0 : 0 < k := by
    rcases Nat.eq_zero_or_pos k with h | h
    · subst h; omega
    · exact h
  rw [Nat.mul_comm] at hk
  have := copyvecRun_ok t E v hs hd hmul' hsrc hread hout hsafe (j := 0) hk0 (by rw [hk]; simp)
  simp only [Nat.zero_mul, overwrite_zero, Nat.zero_add, ← hk] at this
  exact this

/-- The SIMD copy functions touch only `dest[0..n)` and `src[0..n+size)`, and write only `dest`.
The full property (only `src[0..n)` is read) is false, see `C19_overread`. -/
theorem C19_footprint_partial (t : Target) (E : Env α) (v : CopyVariant) {m : Mem α}
    {dest src : Nat} {n : BitVec 32} {x : Nat → α} (hn : 0 < n.toNat) (hmul : t.perLine ∣ n.toNat)
    (hs : t.AddrOk v.srcAligned src) (hd : t.AddrOk v.dstAligned dest)
    (hsrc : Holds m src n.toNat x) (hread : Allocated m src (n.toNat + t.size))
    (hout : Allocated m dest n.toNat) (hsafe : SafePlacement dest src n.toNat) :
    Footprint (copyvecSimd' (t.vec E) v dest src n) m
      (fun a => bufCells dest n.toNat a ∨ bufCells src (n.toNat + t.size) a)
      (bufCells dest n.toNat) :=
  footprint_of_overwrite (fun _ h => Or.inl h)
    (C18_copyvec_simd_partial t E v hn hmul hs hd hsrc hread hout hsafe)
    (C18_copyvec_simd_partial t E v hn hmul hs hd
      (onlyCells_holds hsrc fun a h => Or.inr ⟨h.1, by have := h.2; omega⟩)
      (onlyCells_alloc hread fun _ h => Or.inr h) (onlyCells_alloc hout fun _ h => Or.inl h) hsafe)

theorem ensures_copyRun (t : Target) (E : Env α) (v : CopyVariant) {m : Mem α} {dest src : Nat}
    (hs : t.AddrOk v.srcAligned src) (hd : t.AddrOk v.dstAligned dest)
    {k : Nat} (j : Nat) (u : Unit) (m1 : Mem α) (h1 : SameDom m m1) :
    Ensures (copyvecRun (t.vec E) v.srcAligned v.dstAligned dest src (k * (t.vec E).size)
        (j * (t.vec E).size) u) m1 fun _ m2 =>
      SameDom m m2 ∧ ∀ i, j ≤ i → i < j + k →
        Allocated m (src + (i + 1) * (t.vec E).size) (t.vec E).size := by
  unfold copyvecRun
  split
  · exact Ensures.fail
  · apply Ensures.bind
    rw [t.load_if E hs]
    refine Ensures.mono ensures_readVec ?_
    rintro val m1 ⟨rfl, _⟩
    apply Ensures.bind
    refine Ensures.mono (ensures_unroll
      (P := fun i => Allocated m (src + (i + 1) * (t.vec E).size) (t.vec E).size) (m := m)
      (fun i r m1 h1 => ?_) k j val m1 h1) ?_
    · unfold copyvecBody
      have e2 : src + (t.vec E).size + i * (t.vec E).size = src + (i + 1) * (t.vec E).size := by
        rw [Nat.succ_mul]; omega
      rw [e2, t.load_if E hs]
      apply Ensures.bind
      refine Ensures.mono ensures_readVec ?_
      rintro val _ ⟨rfl, ha⟩
      rw [t.store_if E hd]
      apply Ensures.bind
      refine Ensures.mono ensures_writeVec ?_
      intro _ m2 ⟨h2, _⟩
      exact Ensures.pure ⟨h1.trans h2, h1.allocated ha⟩
    · intro _ m2 h
      exact Ensures.pure h

/-- C19 is false: every SIMD copy function reads the whole vector after the source.  If one cell of
`src[n..n+size)` is not readable the call faults, although only `n` elements are copied. -/
theorem C19_overread (t : Target) (E : Env α) (v : CopyVariant) {m : Mem α} {dest src i : Nat}
    {n : BitVec 32} (hn : 0 < n.toNat) (hmul : t.perLine ∣ n.toNat)
    (hs : t.AddrOk v.srcAligned src) (hd : t.AddrOk v.dstAligned dest)
    (hi : i < t.size) (hnone : m (src + n.toNat + i) = none) :
    ∃ e, copyvecSimd' (t.vec E) v dest src n m = .error e := by
  obtain ⟨k, hpl, hk⟩ := Lawful.line_eq (t.lawful E)
  have hmul' : (t.vec E).perLine ∣ n.toNat := by rw [t.vec_perLine]; exact hmul
  have h := ensures_cacheline hpl hk
    (run := copyvecRun (t.vec E) v.srcAligned v.dstAligned dest src (t.vec E).perLine)
    (P := fun i => Allocated m (src + (i + 1) * (t.vec E).size) (t.vec E).size) (by
      intro j r m1 h1
      rw [hpl]
      exact ensures_copyRun t E v hs hd j r m1 h1) n ()
  refine faults_of_ensures (Ensures.mono h fun _ _ h => h.2) ?_
  intro hall
  rw [tripCount_div (t.lawful E).line_pos (t.lawful E).line_small (Nat.le_of_dvd hn hmul')] at hall
  obtain ⟨q, hq⟩ := hmul'
  rw [hq, Nat.mul_div_cancel_left _ (t.lawful E).line_pos] at hall
  have hqk : 0 < q * k := Nat.mul_pos (by
    rcases Nat.eq_zero_or_pos q with h | h
    · rw [h] at hq; omega
    · exact h) hk
  have := hall (q * k - 1) (by omega) i (by rw [t.vec_size]; exact hi)
  have e : (q * k - 1 + 1) * (t.vec E).size = n.toNat := by
    rw [Nat.sub_add_cancel hqk, hq, hpl, Nat.mul_assoc, Nat.mul_comm]
  rw [e, hnone] at this
  cases this

/-- Consequently the property fails for exactly allocated buffers on every target and for every
admissible size. -/
theorem C19_false (t : Target) (E : Env α) (v : CopyVariant) (n : BitVec 32) (hn : 0 < n.toNat)
    (hmul : t.perLine ∣ n.toNat) {m : Mem α} {dest src : Nat} (hs : t.AddrOk v.srcAligned src)
    (hd : t.AddrOk v.dstAligned dest) (hdis : dest + n.toNat ≤ src) :
    ∃ e, copyvecSimd' (t.vec E) v dest src n
      (onlyCells m fun a => bufCells dest n.toNat a ∨ bufCells src n.toNat a) = .error e := by
  refine C19_overread t E v hn hmul hs hd (i := 0) t.size_pos ?_
  unfold onlyCells
  rw [if_neg]
  unfold bufCells
  omega

/-! ## C20 -/

/-- `addvec(out, in, n)` -/
theorem C20_addvec (E : Env α) {m : Mem α} {out inp : Nat} {n : BitVec 32} {x y : Nat → α}
    (hn : 0 < n.toNat) (hout : Holds m out n.toNat x) (hin : Holds m inp n.toNat y)
    (hsafe : SafePlacement out inp n.toNat) :
    addvec E out inp n m = .ok ((), overwrite m out n.toNat fun i => E.S.add (x i) (y i)) := by
  unfold addvec
  rw [doWhile_eq_iterM, tripCount_of_pos hn]
  have := iterM_seq (body := fun (s : Nat × Nat) => do
      let (out, inp) := s
      let x ← read inp
      let y ← read out
      write out (E.S.add y x)
      pure (out + 1, inp + 1)) (fun k => (out + k, inp + k))
      (fun k => overwrite m out k fun i => E.S.add (x i) (y i)) n.toNat (by
        intro k hk
        simp only
        have r1 : overwrite m out k (fun i => E.S.add (x i) (y i)) (inp + k) = some (y k) := by
          rw [overwrite_outside]
          · exact hin k hk
          · unfold SafePlacement at hsafe; omega
        have r2 : overwrite m out k (fun i => E.S.add (x i) (y i)) (out + k) = some (x k) := by
          rw [overwrite_outside (by omega)]
          exact hout k hk
        rw [Exec.bind_ok (read_ok r1), Exec.bind_ok (read_ok r2),
          Exec.bind_ok (write_overwrite (y := fun i => E.S.add (x i) (y i))
            (by rw [hout k hk]; rfl) rfl)]
        rfl)
  simp only [overwrite_zero, Nat.add_zero] at this
  rw [Exec.bind_ok this]
  rfl

/-- `addvec(out, c, n)` -/
theorem C20_addvec_const (E : Env α) {m : Mem α} {out : Nat} {c : α} {n : BitVec 32} {x : Nat → α}
    (hn : 0 < n.toNat) (hout : Holds m out n.toNat x) :
    addvecConst E out c n m = .ok ((), overwrite m out n.toNat fun i => E.S.add (x i) c) := by
  unfold addvecConst
  rw [doWhile_eq_iterM, tripCount_of_pos hn]
  have := iterM_seq (body := fun out => do
      let y ← read out
      write out (E.S.add y c)
      pure (out + 1)) (fun k => out + k)
      (fun k => overwrite m out k fun i => E.S.add (x i) c) n.toNat (by
        intro k hk
        have r2 : overwrite m out k (fun i => E.S.add (x i) c) (out + k) = some (x k) := by
          rw [overwrite_outside (by omega)]
          exact hout k hk
        rw [Exec.bind_ok (read_ok r2),
          Exec.bind_ok (write_overwrite (y := fun i => E.S.add (x i) c)
            (by rw [hout k hk]; rfl) rfl)]
        rfl)
  simp only [overwrite_zero, Nat.add_zero] at this
  rw [Exec.bind_ok this]
  rfl

theorem holds_allocated {m : Mem α} {p n : Nat} {x : Nat → α} (h : Holds m p n x) : Allocated m p n :=
  fun i hi => by rw [h i hi]; rfl

/-- Reading register `j` of a buffer while `j` registers of the output are written. -/
theorem loadReg (t : Target) (E : Env α) {m : Mem α} {out p n j : Nat} {x z : Nat → α}
    (hal : t.align ∣ p) (hin : Holds m p n x) (hsafe : SafePlacement out p n)
    (hj : (j + 1) * (t.vec E).size ≤ n) :
    (t.vec E).loadAligned (p + j * (t.vec E).size) (overwrite m out (j * (t.vec E).size) z)
      = .ok (fun l => x (j * (t.vec E).size + l), overwrite m out (j * (t.vec E).size) z) := by
  rw [(t.lawful E).loadAligned _ (aligned_reg (t.lawful E) hal)]
  apply readVec_ok
  intro l
  have hl := l.isLt
  have e : (j + 1) * (t.vec E).size = j * (t.vec E).size + (t.vec E).size := Nat.succ_mul _ _
  rw [overwrite_outside, Nat.add_assoc]
  · exact hin _ (by omega)
  · unfold SafePlacement at hsafe
    omega

section
variable (t : Target) (E : Env α) {m : Mem α} {out inp n : Nat} {x y : Nat → α} {c : α}

theorem addvecBody_ok (hoal : t.align ∣ out) (hial : t.align ∣ inp)
    (hout : Holds m out n x) (hin : Holds m inp n y) (hsafe : SafePlacement out inp n)
    (j : Nat) (hj : (j + 1) * (t.vec E).size ≤ n) :
    addvecBody (t.vec E) out inp (j * (t.vec E).size) ()
      (overwrite m out (j * (t.vec E).size) fun i => E.L.add (x i) (y i))
      = .ok ((), overwrite m out ((j + 1) * (t.vec E).size) fun i => E.L.add (x i) (y i)) := by
  unfold addvecBody
  rw [Exec.bind_ok (loadReg t E hoal hout (Or.inl (Nat.le_refl _)) hj),
    Exec.bind_ok (loadReg t E hial hin hsafe hj)]
  refine storeReg (y := fun i => E.L.add (x i) (y i))
    ((t.lawful E).storeAligned _ _ (aligned_reg (t.lawful E) hoal)) (holds_allocated hout) hj ?_
  intro l
  unfold VecImpl.zip
  rw [t.vec_lane]

theorem addvecConstBody_ok (hoal : t.align ∣ out) (hout : Holds m out n x)
    (j : Nat) (hj : (j + 1) * (t.vec E).size ≤ n) :
    addvecConstBody (t.vec E) out ((t.vec E).setVec c) (j * (t.vec E).size) ()
      (overwrite m out (j * (t.vec E).size) fun i => E.L.add (x i) c)
      = .ok ((), overwrite m out ((j + 1) * (t.vec E).size) fun i => E.L.add (x i) c) := by
  unfold addvecConstBody
  rw [Exec.bind_ok (loadReg t E hoal hout (Or.inl (Nat.le_refl _)) hj)]
  refine storeReg (y := fun i => E.L.add (x i) c)
    ((t.lawful E).storeAligned _ _ (aligned_reg (t.lawful E) hoal)) (holds_allocated hout) hj ?_
  intro l
  unfold VecImpl.zip
  rw [t.vec_lane, (t.lawful E).setVec]

end

/-- `addvec_simd(out, in, n)` -/
theorem C20_addvec_simd (t : Target) (E : Env α) {m : Mem α} {out inp : Nat} {n : BitVec 32}
    {x y : Nat → α} (hn : 0 < n.toNat) (hmul : t.perLine ∣ n.toNat) (hoal : t.align ∣ out)
    (hial : t.align ∣ inp) (hout : Holds m out n.toNat x) (hin : Holds m inp n.toNat y)
    (hsafe : SafePlacement out inp n.toNat) :
    addvecSimd (t.vec E) out inp n m
      = .ok ((), overwrite m out n.toNat fun i => E.L.add (x i) (y i)) := by
  have hmul' : (t.vec E).perLine ∣ n.toNat := by rw [t.vec_perLine]; exact hmul
  have := cacheline_unroll (t.lawful E) (body := addvecBody (t.vec E) out inp)
    (R := fun _ => ())
    (W := fun j => overwrite m out (j * (t.vec E).size) fun i => E.L.add (x i) (y i)) hn hmul'
    (fun j hj => addvecBody_ok t E hoal hial hout hin hsafe j hj)
  simp only [Nat.zero_mul, overwrite_zero, div_mul_size (line_size_dvd (t.lawful E) hmul')] at this
  exact this

/-- `addvec_simd<N>(out, in)` -/
theorem C20_addvec_simd_n (t : Target) (E : Env α) {m : Mem α} {out inp N : Nat}
    {x y : Nat → α} (hmul : t.size ∣ N) (hoal : t.align ∣ out)
    (hial : t.align ∣ inp) (hout : Holds m out N x) (hin : Holds m inp N y)
    (hsafe : SafePlacement out inp N) :
    addvecSimdN (t.vec E) N out inp m
      = .ok ((), overwrite m out N fun i => E.L.add (x i) (y i)) := by
  have hmul' : (t.vec E).size ∣ N := by rw [t.vec_size]; exact hmul
  have := unroll_all (body := addvecBody (t.vec E) out inp) (R := fun _ => ())
    (W := fun j => overwrite m out (j * (t.vec E).size) fun i => E.L.add (x i) (y i)) hmul'
    (fun j hj => addvecBody_ok t E hoal hial hout hin hsafe j hj)
  simp only [Nat.zero_mul, overwrite_zero, div_mul_size hmul'] at this
  exact this

/-- `addvec_simd(out, c, n)` -/
theorem C20_addvec_const_simd (t : Target) (E : Env α) {m : Mem α} {out : Nat} {n : BitVec 32}
    {x : Nat → α} {c : α} (hn : 0 < n.toNat) (hmul : t.perLine ∣ n.toNat) (hoal : t.align ∣ out)
    (hout : Holds m out n.toNat x) :
    addvecConstSimd (t.vec E) out c n m
      = .ok ((), overwrite m out n.toNat fun i => E.L.add (x i) c) := by
  have hmul' : (t.vec E).perLine ∣ n.toNat := by rw [t.vec_perLine]; exact hmul
  have := cacheline_unroll (t.lawful E)
    (body := addvecConstBody (t.vec E) out ((t.vec E).setVec c)) (R := fun _ => ())
    (W := fun j => overwrite m out (j * (t.vec E).size) fun i => E.L.add (x i) c) hn hmul'
    (fun j hj => addvecConstBody_ok t E hoal hout j hj)
  simp only [Nat.zero_mul, overwrite_zero, div_mul_size (line_size_dvd (t.lawful E) hmul')] at this
  exact this

/-- `addvec_simd<N>(out, c)` -/
theorem C20_addvec_const_simd_n (t : Target) (E : Env α) {m : Mem α} {out N : Nat}
    {x : Nat → α} {c : α} (hmul : t.size ∣ N) (hoal : t.align ∣ out) (hout : Holds m out N x) :
    addvecConstSimdN (t.vec E) N out c m
      = .ok ((), overwrite m out N fun i => E.L.add (x i) c) := by
  have hmul' : (t.vec E).size ∣ N := by rw [t.vec_size]; exact hmul
  have := unroll_all (body := addvecConstBody (t.vec E) out ((t.vec E).setVec c)) (R := fun _ => ())
    (W := fun j => overwrite m out (j * (t.vec E).size) fun i => E.L.add (x i) c) hmul'
    (fun j hj => addvecConstBody_ok t E hoal hout j hj)
  simp only [Nat.zero_mul, overwrite_zero, div_mul_size hmul'] at this
  exact this

/-! ## C10 for this header: sizes the loops cannot handle -/

/-- `setvec_simd`, `set_slope_vec_simd` and `addvec_simd` with `n < objects_per_cacheline` run `2^32`
times through the loop: they fault unless the whole range is allocated. -/
theorem C10_fill_small (t : Target) (E : Env α) (aligned : Bool) {m : Mem α} {dest i : Nat} {f : α}
    {n : BitVec 32} (hn : n.toNat < t.perLine) (hal : t.AddrOk aligned dest)
    (hi : i < 2 ^ 32 * t.perLine) (hnone : m (dest + i) = none) :
    ∃ e, setvecSimd (t.vec E) aligned dest f n m = .error e := by
  have h := ensures_cacheline_unroll (t.lawful E) (p := dest)
    (body := setvecBody (t.vec E) aligned dest ((t.vec E).setVec f)) (m := m) (by
      intro j r m1 h1
      unfold setvecBody
      rw [t.store_if E hal]
      refine Ensures.mono ensures_writeVec ?_
      intro _ m2 ⟨h2, ha⟩
      exact ⟨h1.trans h2, h1.allocated ha⟩) n ()
  refine faults_of_ensures (Ensures.mono h fun _ _ h => h.2) ?_
  intro hall
  rw [tripCount_div_lt (t.lawful E).line_small (by rw [t.vec_perLine]; exact hn), t.vec_perLine] at hall
  have := hall i hi
  rw [hnone] at this
  cases this

theorem C10_addvec_small (t : Target) (E : Env α) {m : Mem α} {out inp i : Nat}
    {n : BitVec 32} (hn : n.toNat < t.perLine) (hoal : t.align ∣ out)
    (hi : i < 2 ^ 32 * t.perLine) (hnone : m (out + i) = none) :
    ∃ e, addvecSimd (t.vec E) out inp n m = .error e := by
  have h := ensures_cacheline_unroll (t.lawful E) (p := out)
    (body := addvecBody (t.vec E) out inp) (m := m) (by
      intro j r m1 h1
      unfold addvecBody
      rw [(t.lawful E).loadAligned _ (aligned_reg (t.lawful E) hoal)]
      apply Ensures.bind
      refine Ensures.mono ensures_readVec ?_
      rintro v1 _ ⟨rfl, ha⟩
      apply Ensures.bind
      refine Ensures.mono ((t.domLaws E).loadAligned _ _) ?_
      rintro v2 _ rfl
      rw [(t.lawful E).storeAligned _ _ (aligned_reg (t.lawful E) hoal)]
      refine Ensures.mono ensures_writeVec ?_
      intro _ m2 ⟨h2, _⟩
      exact ⟨h1.trans h2, h1.allocated ha⟩) n ()
  refine faults_of_ensures (Ensures.mono h fun _ _ h => h.2) ?_
  intro hall
  rw [tripCount_div_lt (t.lawful E).line_small (by rw [t.vec_perLine]; exact hn), t.vec_perLine] at hall
  have := hall i hi
  rw [hnone] at this
  cases this

/-! ## Altivec has no unaligned access -/

/-- On Altivec `setvec_na_simd` at an unaligned address writes other cells than the buffer: the
unaligned entry points of C15 do not work there. -/
theorem C15_altivec_unaligned_false :
    let call := setvecSimd (Target.altivec.vec Examples.intEnv) false 1 7 16#32
    cellAfter call (Examples.ramp 17) 0 = some 7 ∧ cellAfter call (Examples.ramp 17) 16 = some 60 := by
  decide +kernel

/-! ## The hypotheses are satisfiable -/
section examples
open Examples

example : setvecSimd (Target.avxFloat.vec intEnv) true 8 5 32#32 (ramp 48)
    = .ok ((), overwrite (ramp 48) 8 32 fun _ => 5) :=
  C15_setvec_simd .avxFloat intEnv true (by decide) (by decide) (fun _ => by decide)
    (by unfold Allocated; decide)

example : setSlopeVecSimd intEnv (Target.sse2.vec intEnv) 2 100 (-7) 16#32 (ramp 20)
    = .ok ((), overwrite (ramp 20) 2 16 fun i => 100 + i * (-7)) :=
  C16_simd .sse2 intEnv intEnv_exact (by decide) (by decide) (by decide) (by unfold Allocated; decide)

example : setExpVecSimd intEnv (Target.neon.vec intEnv) 3 5 2 16#32 (ramp 20)
    = .ok ((), overwrite (ramp 20) 3 16 fun i => 5 * 2 ^ i) :=
  C17_simd .neon intEnv intEnv_exact (by decide) (by decide) (by decide) (by unfold Allocated; decide)

/-- Copying 16 floats from address 3 (unaligned) to 32 with `copyvec_na_simd`: 20 are read. -/
example : copyvecSimd' ((Target.sse false false).vec intEnv) .na 32 3 16#32 (ramp 48)
    = .ok ((), overwrite (ramp 48) 32 16 fun i => 10 * ((3 + i : Nat) : Int) - 100) :=
  C18_copyvec_simd_partial (.sse false false) intEnv .na (by decide) (by decide)
    (fun h => absurd h (by decide)) (fun _ => by decide) (by unfold Holds; decide)
    (by unfold Allocated; decide) (by unfold Allocated; decide) (Or.inr (by decide))

/-- The same call when the 16 floats are the end of the allocated memory. -/
example : ∃ e, copyvecSimd' ((Target.sse false false).vec intEnv) .aa 0 16 16#32 (ramp 32) = .error e :=
  C19_overread (.sse false false) intEnv .aa (by decide) (by decide) (fun _ => by decide)
    (fun _ => by decide) (i := 0) (by decide) (by decide)

example : addvecSimd (Target.avxDouble.vec intEnv) 0 8 8#32 (ramp 16)
    = .ok ((), overwrite (ramp 16) 0 8 fun i =>
        (10 * (i : Int) - 100) + (10 * ((8 + i : Nat) : Int) - 100)) :=
  C20_addvec_simd .avxDouble intEnv (x := fun i => 10 * (i : Int) - 100)
    (y := fun i => 10 * ((8 + i : Nat) : Int) - 100) (by decide) (by decide) (by decide) (by decide)
    (by unfold Holds; decide) (by unfold Holds; decide) (Or.inl (by decide))

end examples

end Nova
