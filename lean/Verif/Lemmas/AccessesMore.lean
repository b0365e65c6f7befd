import Verif.Lemmas.Accesses
import Verif.Lemmas.Cacheline
import Verif.Model.Pan
import Verif.Model.Meters

/-!
# Which cells the remaining loops access
-/

namespace Nova
open Spec
variable {α β ρ σ : Type} {R W : Nat → Prop}

theorem does_assertNonzero {E : Env α} {n : BitVec 32} : Does R W (assertNonzero E n) fun _ => True := by
  unfold assertNonzero
  split
  · exact Does.fail
  · exact Does.pure trivial

section regs
variable {I : VecImpl α} {al : Nat}

theorem does_unroll {body : Nat → ρ → Exec α ρ} {J : Nat}
    (hb : ∀ j r, j < J → Does R W (body (j * I.size) r) fun _ => True) :
    ∀ k j r, j + k ≤ J → Does R W (unrollTmpl I body (k * I.size) (j * I.size) r) fun _ => True
  | 0, j, r, _ => by
      rw [unrollTmpl, if_pos (by omega)]
      exact Does.pure trivial
  | k + 1, j, r, h => by
      have hp := I.size_pos
      have e1 : (k + 1) * I.size = k * I.size + I.size := Nat.succ_mul _ _
      rw [unrollTmpl, if_neg (by omega), dif_neg (by omega)]
      refine Does.bind (hb j r (by omega)) fun r _ => ?_
      rw [show (k + 1) * I.size - I.size = k * I.size by omega,
        show j * I.size + I.size = (j + 1) * I.size from (Nat.succ_mul _ _).symm]
      exact does_unroll hb k (j + 1) r (by omega)

theorem does_line (hI : I.Lawful al) {run : Nat → ρ → Exec α ρ} {n : BitVec 32} (hn : 0 < n.toNat)
    (hmul : I.perLine ∣ n.toNat)
    (h : ∀ q r, q < n.toNat / I.perLine → Does R W (run (q * I.perLine) r) fun _ => True) (r : ρ) :
    Does R W (cachelineLoop I run n r) fun _ => True := by
  unfold cachelineLoop
  refine Does.bind (does_doWhile (Inv := fun i s => s.1 = i * I.perLine) ?_ (Nat.zero_mul _).symm)
    fun _ _ => Does.pure trivial
  rw [tripCount_div hI.line_pos hI.line_small (Nat.le_of_dvd hn hmul)]
  rintro i ⟨o, r⟩ hi ho
  have ho : o = i * I.perLine := ho
  subst ho
  exact Does.bind (h i r hi) fun _ _ => Does.pure (Nat.succ_mul _ _).symm

theorem does_cacheline (hI : I.Lawful al) {body : Nat → ρ → Exec α ρ} {n : BitVec 32} (hn : 0 < n.toNat)
    (hmul : I.perLine ∣ n.toNat)
    (hb : ∀ j r, j < n.toNat / I.size → Does R W (body (j * I.size) r) fun _ => True) (r : ρ) :
    Does R W (cachelineLoop I (unrollTmpl I body I.perLine) n r) fun _ => True := by
  refine does_line hI hn hmul (fun q r hq => ?_) r
  obtain ⟨k, hk⟩ := hI.line_dvd
  obtain ⟨c, hc⟩ := hmul
  have hpl : 0 < I.perLine := hI.line_pos
  rw [hc, Nat.mul_div_cancel_left _ hpl] at hq
  have hJ : n.toNat / I.size = k * c := by
    rw [hc, hk, Nat.mul_assoc, Nat.mul_div_cancel_left _ I.size_pos]
  have e1 : q * I.perLine = (k * q) * I.size := by rw [hk]; ac_rfl
  have e2 : I.perLine = k * I.size := by rw [hk, Nat.mul_comm]
  rw [e1, e2]
  refine does_unroll hb k (k * q) r ?_
  rw [hJ, ← Nat.mul_succ]
  exact Nat.mul_le_mul_left k hq

theorem does_load (hI : I.Lawful al) {p j J : Nat} (h : al ∣ p) (hR : ∀ i, i < J * I.size → R (p + i)) (hj : j < J) :
    Does R W (I.loadAligned (p + j * I.size)) fun _ => True := by
  rw [hI.loadAligned _ (dvd_add_mul h hI.al_dvd)]
  refine does_readVec fun i hi => ?_
  rw [Nat.add_assoc]
  exact hR _ (reg_index_lt ⟨i, hi⟩ hj)

theorem does_store (hI : I.Lawful al) {p j J : Nat} {v : I.V} (h : al ∣ p)
    (hW : ∀ i, i < J * I.size → W (p + i)) (hj : j < J) :
    Does R W (I.storeAligned v (p + j * I.size)) fun _ => True := by
  rw [hI.storeAligned _ _ (dvd_add_mul h hI.al_dvd)]
  refine does_writeVec fun i hi => ?_
  rw [Nat.add_assoc]
  exact hW _ (reg_index_lt ⟨i, hi⟩ hj)

end regs

theorem does_loadFirst (t : Target) (E : Env α) {p : Nat} (h : R p) :
    Does R W ((t.vec E).loadFirst p) fun _ => True := by
  cases t with
  | genericFloat => exact Does.bind (does_read h) fun _ _ => Does.pure trivial
  | genericDouble => exact Does.bind (does_read h) fun _ _ => Does.pure trivial
  | sse a b => exact Does.bind (does_read h) fun _ _ => Does.pure trivial
  | sse2 => exact Does.bind (does_read h) fun _ _ => Does.pure trivial
  | avxFloat => exact Does.bind (does_read h) fun _ _ => Does.pure trivial
  | avxDouble => exact Does.bind (does_read h) fun _ _ => Does.pure trivial
  | neon => exact Does.bind (does_read h) fun _ _ => Does.pure trivial
  | altivec => exact Does.bind (does_read h) fun _ _ => Does.lift fun _ => trivial

theorem does_memset {A : Arith α} {dest n : Nat} (h : ∀ i, i < n → W (dest + i)) :
    Does R W (memsetZero A dest n) fun _ => True := by
  refine ⟨writeProg (.oob dest) n dest fun _ => A.zero, ?_, writeProg_gives h⟩
  funext m
  rw [writeProg_run]
  rfl

theorem does_memcpy {dest src n : Nat} (hR : ∀ i, i < n → R (src + i)) (hW : ∀ i, i < n → W (dest + i))
    (hdis : dest + n ≤ src ∨ src + n ≤ dest) : Does R W (memcpy dest src n : Exec α Unit) fun _ => True := by
  have hg := readProg_gives (α := α) (R := R) (W := W) (e := .oob dest) hR
  refine ⟨Prog.andThen (writeProg (.oob dest) n dest) (readProg (.oob dest) n src), ?_,
    Prog.andThen_gives hg fun _ _ => writeProg_gives hW⟩
  rw [Prog.andThen_run hg (g := fun v => (writeProg (.oob dest) n dest v).run) fun _ _ => rfl]
  funext m
  rw [Exec.bind_run, readProg_run]
  unfold memcpy
  by_cases h1 : m.allocated src n
  · rw [dif_pos h1]
    show (writeProg (.oob dest) n dest _).run m = _
    rw [writeProg_run]
    by_cases h2 : m.allocated dest n
    · rw [if_pos h2, if_pos ⟨h2, h1⟩, if_pos (Or.inr hdis)]
      congr 2
      funext a
      by_cases h : dest ≤ a ∧ a < dest + n
      · rw [dif_pos h, if_pos h]
        exact Option.some_get _
      · rw [dif_neg h, if_neg h]
    · rw [if_neg h2, if_neg fun h => h2 h.1]
  · rw [dif_neg h1, if_neg fun h => h1 h.2]

/-! ## Scalar loops -/
section scalar
variable {n : BitVec 32} (hn : 0 < n.toNat)
include hn

theorem does_setvec {E : Env α} {dest : Nat} {f : α} (hW : ∀ i, i < n.toNat → W (dest + i)) :
    Does R W (setvec E dest f n) fun _ => True := by
  unfold setvec
  refine Does.bind does_assertNonzero fun _ _ => ?_
  refine Does.bind (does_doWhile (Inv := fun i s => s = dest + i) ?_ rfl) fun _ _ => Does.pure trivial
  rw [tripCount_of_pos hn]
  rintro i s hi rfl
  exact Does.bind (does_write (hW i hi)) fun _ _ => Does.pure rfl

theorem does_setSlopeVec {E : Env α} {dest : Nat} {f s : α} (hW : ∀ i, i < n.toNat → W (dest + i)) :
    Does R W (setSlopeVec E dest f s n) fun _ => True := by
  unfold setSlopeVec
  refine Does.bind does_assertNonzero fun _ _ => ?_
  refine Does.bind (does_doWhile (Inv := fun i s => s.1 = dest + i) ?_ rfl) fun _ _ => Does.pure trivial
  rw [tripCount_of_pos hn]
  rintro i ⟨o, s⟩ hi h
  have h : o = dest + i := h
  subst h
  exact Does.bind (does_write (hW i hi)) fun _ _ => Does.pure rfl

theorem does_setExpVec {E : Env α} {dest : Nat} {f s : α} (hW : ∀ i, i < n.toNat → W (dest + i)) :
    Does R W (setExpVec E dest f s n) fun _ => True := by
  unfold setExpVec
  refine Does.bind does_assertNonzero fun _ _ => ?_
  refine Does.bind (does_doWhile (Inv := fun i s => s.1 = dest + i) ?_ rfl) fun _ _ => Does.pure trivial
  rw [tripCount_of_pos hn]
  rintro i ⟨o, s⟩ hi h
  have h : o = dest + i := h
  subst h
  exact Does.bind (does_write (hW i hi)) fun _ _ => Does.pure rfl

theorem does_addvec {E : Env α} {out inp : Nat} (hR : ∀ i, i < n.toNat → R (inp + i))
    (hR' : ∀ i, i < n.toNat → R (out + i)) (hW : ∀ i, i < n.toNat → W (out + i)) :
    Does R W (addvec E out inp n) fun _ => True := by
  unfold addvec
  refine Does.bind (does_doWhile (Inv := fun i s => s = (out + i, inp + i)) ?_ rfl) fun _ _ => Does.pure trivial
  rw [tripCount_of_pos hn]
  rintro i s hi rfl
  refine Does.bind (does_read (hR i hi)) fun _ _ => Does.bind (does_read (hR' i hi)) fun _ _ => ?_
  exact Does.bind (does_write (hW i hi)) fun _ _ => Does.pure rfl

theorem does_addvecConst {E : Env α} {out : Nat} {c : α} (hR : ∀ i, i < n.toNat → R (out + i))
    (hW : ∀ i, i < n.toNat → W (out + i)) : Does R W (addvecConst E out c n) fun _ => True := by
  unfold addvecConst
  refine Does.bind (does_doWhile (Inv := fun i s => s = out + i) ?_ rfl) fun _ _ => Does.pure trivial
  rw [tripCount_of_pos hn]
  rintro i s hi rfl
  refine Does.bind (does_read (hR i hi)) fun _ _ => ?_
  exact Does.bind (does_write (hW i hi)) fun _ _ => Does.pure rfl

theorem does_pan2 {E : Env α} {out0 out1 inp : Nat} {f0 f1 : α} (hR : ∀ i, i < n.toNat → R (inp + i))
    (hW0 : ∀ i, i < n.toNat → W (out0 + i)) (hW1 : ∀ i, i < n.toNat → W (out1 + i)) :
    Does R W (pan2Vec E out0 out1 inp f0 f1 n) fun _ => True := by
  unfold pan2Vec
  refine Does.bind (does_doWhile (Inv := fun i s => s = (out0 + i, out1 + i, inp + i)) ?_ rfl)
    fun _ _ => Does.pure trivial
  rw [tripCount_of_pos hn]
  rintro i s hi rfl
  refine Does.bind (does_read (hR i hi)) fun _ _ => Does.bind (does_write (hW0 i hi)) fun _ _ => ?_
  exact Does.bind (does_write (hW1 i hi)) fun _ _ => Does.pure rfl

theorem does_pan2Ramp {E : Env α} {out0 out1 inp : Nat} {f0 s0 f1 s1 : α} (hR : ∀ i, i < n.toNat → R (inp + i))
    (hW0 : ∀ i, i < n.toNat → W (out0 + i)) (hW1 : ∀ i, i < n.toNat → W (out1 + i)) :
    Does R W (pan2VecRamp E out0 out1 inp f0 s0 f1 s1 n) fun _ => True := by
  unfold pan2VecRamp
  refine Does.bind (does_doWhile (Inv := fun i s => s.1 = (out0 + i, out1 + i, inp + i)) ?_ rfl)
    fun _ _ => Does.pure trivial
  rw [tripCount_of_pos hn]
  rintro i ⟨s, g⟩ hi h
  have h : s = _ := h
  subst h
  refine Does.bind (does_read (hR i hi)) fun _ _ => Does.bind (does_write (hW0 i hi)) fun _ _ => ?_
  exact Does.bind (does_write (hW1 i hi)) fun _ _ => Does.pure rfl

theorem does_peak {E : Env α} {inp peak : Nat} (hR : ∀ i, i < n.toNat → R (inp + i)) (hp : R peak) (hW : W peak) :
    Does R W (peakVec E inp peak n) fun _ => True := by
  unfold peakVec
  refine Does.bind (does_read hp) fun _ _ => ?_
  refine Does.bind (does_doWhile (Inv := fun i s => s.1 = inp + i) ?_ rfl) fun s _ => ?_
  · rw [tripCount_of_pos hn]
    rintro i ⟨o, s⟩ hi h
    have h : o = inp + i := h
    subst h
    exact Does.bind (does_read (hR i hi)) fun _ _ => Does.pure rfl
  · exact Does.bind (does_write hW) fun _ _ => does_initialised

theorem does_peakRms {E : Env α} {inp peak sum : Nat} (hR : ∀ i, i < n.toNat → R (inp + i)) (hp : R peak)
    (hs : R sum) (hW : W peak) (hW' : W sum) : Does R W (peakRmsVec E inp peak sum n) fun _ => True := by
  unfold peakRmsVec
  refine Does.bind (does_read hp) fun _ _ => Does.bind (does_read hs) fun _ _ => ?_
  refine Does.bind (does_doWhile (Inv := fun i s => s.1 = inp + i) ?_ rfl) fun s _ => ?_
  · rw [tripCount_of_pos hn]
    rintro i ⟨o, s⟩ hi h
    have h : o = inp + i := h
    subst h
    exact Does.bind (does_read (hR i hi)) fun _ _ => Does.pure rfl
  · exact Does.bind (does_write hW) fun _ _ => does_write hW'

theorem does_fold {f : σ → α → σ} {init : σ} {inp : Nat} (hR : ∀ i, i < n.toNat → R (inp + i)) :
    Does R W (foldVec f init inp n) fun _ => True := by
  unfold foldVec
  refine Does.bind (does_doWhile (Inv := fun i s => s.1 = inp + i) ?_ rfl) fun s _ => Does.pure trivial
  rw [tripCount_of_pos hn]
  rintro i ⟨o, s⟩ hi h
  have h : o = inp + i := h
  subst h
  exact Does.bind (does_read (hR i hi)) fun _ _ => Does.pure rfl

end scalar

/-! ## SIMD loops -/
section simd
variable {I : VecImpl α} {al : Nat} (hI : I.Lawful al) {n : BitVec 32} (hn : 0 < n.toNat)
include hI hn

omit hI in
theorem does_blocks {k : Nat} (hk : 0 < k) (hk2 : k < 2 ^ 32) (hmul : k ∣ n.toNat) {inp : Nat}
    {body : Nat × σ → Exec α (Nat × σ)}
    (h : ∀ i s, i < n.toNat / k → Does R W (body (inp + i * k, s)) fun r => r.1 = inp + i * k + k) (s : σ) :
    Does R W (doWhile body (n / BitVec.ofNat 32 k) (inp, s)) fun _ => True := by
  refine Does.mono (does_doWhile (Inv := fun i s => s.1 = inp + i * k) ?_ ?_) fun _ _ => trivial
  · rw [tripCount_div hk hk2 (Nat.le_of_dvd hn hmul)]
    rintro i ⟨o, s⟩ hi ho
    have ho : o = inp + i * k := ho
    subst ho
    refine (h i s hi).mono fun r hr => ?_
    rw [hr, Nat.succ_mul, Nat.add_assoc]
  · show inp = inp + 0 * k
    rw [Nat.zero_mul]
    rfl

theorem does_foldSimd {f : σ → I.V → σ} {init : σ} {inp : Nat} (hmul : I.size ∣ n.toNat) (hs : I.size < 2 ^ 32)
    (hal : al ∣ inp) (hR : ∀ i, i < n.toNat → R (inp + i)) :
    Does R W (foldVecSimd I f init inp n) fun _ => True := by
  unfold foldVecSimd
  refine Does.bind (does_blocks hn I.size_pos hs hmul (fun i s hi => ?_) init) fun _ _ => Does.pure trivial
  refine Does.bind (does_load hI hal (J := n.toNat / I.size) ?_ hi) fun _ _ => Does.pure rfl
  rw [Nat.div_mul_cancel hmul]
  exact hR

theorem does_peakStep {inp : Nat} {maximum : I.V} {i K : Nat} (hal : al ∣ inp)
    (hR : ∀ c, c < K * (4 * I.size) → R (inp + c)) (hi : i < K) :
    Does R W (peakStep I (inp + i * (4 * I.size)) maximum) fun _ => True := by
  have hR' : ∀ c, c < (4 * K) * I.size → R (inp + c) := fun c hc => hR c (by
    rwa [show K * (4 * I.size) = 4 * K * I.size by ac_rfl])
  have e : inp + i * (4 * I.size) = inp + (4 * i) * I.size := by rw [show i * (4 * I.size) = 4 * i * I.size by ac_rfl]
  have ld : ∀ k, k < 4 → Does R W (I.loadAligned (inp + i * (4 * I.size) + k * I.size)) fun _ => True := by
    intro k hk
    rw [e, Nat.add_assoc, ← Nat.add_mul]
    exact does_load hI hal hR' (by omega)
  have l0 := ld 0 (by omega)
  have l1 := ld 1 (by omega)
  rw [Nat.zero_mul, Nat.add_zero] at l0
  rw [Nat.one_mul] at l1
  unfold peakStep
  exact Does.bind l0 fun _ _ => Does.bind l1 fun _ _ => Does.bind (ld 2 (by omega)) fun _ _ =>
    Does.bind (ld 3 (by omega)) fun _ _ => Does.pure trivial

theorem does_peakRmsStep {inp : Nat} {maximum sum : I.V} {i K : Nat} (hal : al ∣ inp)
    (hR : ∀ c, c < K * (4 * I.size) → R (inp + c)) (hi : i < K) :
    Does R W (peakRmsStep I (inp + i * (4 * I.size)) maximum sum) fun _ => True := by
  have hR' : ∀ c, c < (4 * K) * I.size → R (inp + c) := fun c hc => hR c (by
    rwa [show K * (4 * I.size) = 4 * K * I.size by ac_rfl])
  have e : inp + i * (4 * I.size) = inp + (4 * i) * I.size := by rw [show i * (4 * I.size) = 4 * i * I.size by ac_rfl]
  have ld : ∀ k, k < 4 → Does R W (I.loadAligned (inp + i * (4 * I.size) + k * I.size)) fun _ => True := by
    intro k hk
    rw [e, Nat.add_assoc, ← Nat.add_mul]
    exact does_load hI hal hR' (by omega)
  have l0 := ld 0 (by omega)
  have l1 := ld 1 (by omega)
  rw [Nat.zero_mul, Nat.add_zero] at l0
  rw [Nat.one_mul] at l1
  unfold peakRmsStep
  exact Does.bind l0 fun _ _ => Does.bind l1 fun _ _ => Does.bind (ld 2 (by omega)) fun _ _ =>
    Does.bind (ld 3 (by omega)) fun _ _ => Does.pure trivial

theorem does_peakSimd {inp peak : Nat} (hs : 4 * I.size < 2 ^ 32) (hmul : 4 * I.size ∣ n.toNat)
    (hal : al ∣ inp) (hR : ∀ i, i < n.toNat → R (inp + i)) (hW : W peak)
    (hf : Does R W (I.loadFirst peak) fun _ => True) :
    Does R W (peakVecSimd I inp peak n) fun _ => True := by
  have hp := I.size_pos
  unfold peakVecSimd
  refine Does.bind hf fun _ _ => ?_
  refine Does.bind (does_blocks hn (by omega) hs hmul (fun i s hi => ?_) _) fun s _ => ?_
  · refine Does.bind (does_peakStep hI hn hal (K := n.toNat / (4 * I.size)) ?_ hi) fun _ _ => Does.pure rfl
    rw [Nat.div_mul_cancel hmul]
    exact hR
  · exact Does.bind (does_write hW) fun _ _ => Does.bind does_initialised fun _ _ => Does.lift fun _ => trivial

theorem does_peakRmsSimd {inp peak sum : Nat} (hs : 4 * I.size < 2 ^ 32) (hmul : 4 * I.size ∣ n.toNat)
    (hal : al ∣ inp) (hR : ∀ i, i < n.toNat → R (inp + i)) (hW : W peak) (hW' : W sum)
    (hf : Does R W (I.loadFirst peak) fun _ => True) (hf' : Does R W (I.loadFirst sum) fun _ => True) :
    Does R W (peakRmsVecSimd I inp peak sum n) fun _ => True := by
  have hp := I.size_pos
  unfold peakRmsVecSimd
  refine Does.bind hf fun _ _ => Does.bind hf' fun _ _ => ?_
  refine Does.bind (does_blocks hn (by omega) hs hmul (fun i s hi => ?_) _) fun s _ => ?_
  · refine Does.bind (does_peakRmsStep hI hn hal (K := n.toNat / (4 * I.size)) ?_ hi) fun _ _ => Does.pure rfl
    rw [Nat.div_mul_cancel hmul]
    exact hR
  · exact Does.bind (does_write hW) fun _ _ => does_write hW'

variable (hmul : I.perLine ∣ n.toNat)
include hmul

theorem upto {P : Nat → Prop} {p : Nat} (h : ∀ i, i < n.toNat → P (p + i)) :
    ∀ i, i < n.toNat / I.size * I.size → P (p + i) := by
  rw [Nat.div_mul_cancel (Nat.dvd_trans hI.line_dvd hmul)]
  exact h

theorem does_setSlopeSimd {E : Env α} {dest : Nat} {f s : α} (hal : al ∣ dest)
    (hW : ∀ i, i < n.toNat → W (dest + i)) : Does R W (setSlopeVecSimd E I dest f s n) fun _ => True := by
  unfold setSlopeVecSimd
  refine Does.bind (does_cacheline hI hn hmul (fun j r hj => ?_) _) fun _ _ => Does.pure trivial
  exact Does.bind (does_store hI hal (upto hI hn hmul hW) hj) fun _ _ => Does.pure trivial

theorem does_setExpSimd {E : Env α} {dest : Nat} {f s : α} (hal : al ∣ dest)
    (hW : ∀ i, i < n.toNat → W (dest + i)) : Does R W (setExpVecSimd E I dest f s n) fun _ => True := by
  unfold setExpVecSimd
  refine Does.bind (does_cacheline hI hn hmul (fun j r hj => ?_) _) fun _ _ => Does.pure trivial
  exact Does.bind (does_store hI hal (upto hI hn hmul hW) hj) fun _ _ => Does.pure trivial

theorem does_addvecSimd {out inp : Nat} (hal : al ∣ out) (hal' : al ∣ inp)
    (hR : ∀ i, i < n.toNat → R (inp + i)) (hR' : ∀ i, i < n.toNat → R (out + i))
    (hW : ∀ i, i < n.toNat → W (out + i)) : Does R W (addvecSimd I out inp n) fun _ => True := by
  refine does_cacheline hI hn hmul (fun j r hj => ?_) _
  exact Does.bind (does_load hI hal (upto hI hn hmul hR') hj) fun _ _ =>
    Does.bind (does_load hI hal' (upto hI hn hmul hR) hj) fun _ _ => does_store hI hal (upto hI hn hmul hW) hj

theorem does_addvecConstSimd {out : Nat} {c : α} (hal : al ∣ out) (hR' : ∀ i, i < n.toNat → R (out + i))
    (hW : ∀ i, i < n.toNat → W (out + i)) : Does R W (addvecConstSimd I out c n) fun _ => True := by
  refine does_cacheline hI hn hmul (fun j r hj => ?_) _
  exact Does.bind (does_load hI hal (upto hI hn hmul hR') hj) fun _ _ => does_store hI hal (upto hI hn hmul hW) hj

theorem does_pan2Simd {out0 out1 inp : Nat} {f0 f1 : α} (h0 : al ∣ out0) (h1 : al ∣ out1) (hal' : al ∣ inp)
    (hR : ∀ i, i < n.toNat → R (inp + i)) (hW0 : ∀ i, i < n.toNat → W (out0 + i))
    (hW1 : ∀ i, i < n.toNat → W (out1 + i)) : Does R W (pan2VecSimd I out0 out1 inp f0 f1 n) fun _ => True := by
  refine does_cacheline hI hn hmul (fun j r hj => ?_) _
  exact Does.bind (does_load hI hal' (upto hI hn hmul hR) hj) fun _ _ =>
    Does.bind (does_store hI h0 (upto hI hn hmul hW0) hj) fun _ _ => does_store hI h1 (upto hI hn hmul hW1) hj

theorem does_pan2RampSimd {out0 out1 inp : Nat} {f0 s0 f1 s1 : α} (h0 : al ∣ out0) (h1 : al ∣ out1)
    (hal' : al ∣ inp) (hR : ∀ i, i < n.toNat → R (inp + i)) (hW0 : ∀ i, i < n.toNat → W (out0 + i))
    (hW1 : ∀ i, i < n.toNat → W (out1 + i)) :
    Does R W (pan2VecRampSimd I out0 out1 inp f0 s0 f1 s1 n) fun _ => True := by
  unfold pan2VecRampSimd
  refine Does.bind (does_cacheline hI hn hmul (fun j r hj => ?_) _) fun _ _ => Does.pure trivial
  exact Does.bind (does_load hI hal' (upto hI hn hmul hR) hj) fun _ _ =>
    Does.bind (does_store hI h0 (upto hI hn hmul hW0) hj) fun _ _ =>
      Does.bind (does_store hI h1 (upto hI hn hmul hW1) hj) fun _ _ => Does.pure trivial

end simd

section unaligned
variable (t : Target) (E : Env α) {n : BitVec 32} (hn : 0 < n.toNat) (hmul : t.perLine ∣ n.toNat)
include hn hmul

theorem does_detailSetvec {aligned : Bool} {dest : Nat} {val : (t.vec E).V} (hd : t.AddrOk aligned dest)
    (hW : ∀ i, i < n.toNat → W (dest + i)) :
    Does R W (detailSetvecSimd (t.vec E) aligned dest val n) fun _ => True := by
  have hmul' : (t.vec E).perLine ∣ n.toNat := by rw [t.vec_perLine]; exact hmul
  refine does_cacheline (t.lawful E) hn hmul' (fun j r hj => ?_) _
  unfold setvecBody
  rw [t.store_if E hd]
  refine does_writeVec fun i hi => ?_
  rw [Nat.add_assoc]
  exact upto (t.lawful E) hn hmul' hW _ (reg_index_lt ⟨i, hi⟩ hj)

theorem does_copySimd {v : CopyVariant} {dest src : Nat} (hs : t.AddrOk v.srcAligned src)
    (hd : t.AddrOk v.dstAligned dest) (hR : ∀ i, i < n.toNat + t.size → R (src + i))
    (hW : ∀ i, i < n.toNat → W (dest + i)) :
    Does R W (copyvecSimd' (t.vec E) v dest src n) fun _ => True := by
  have hI := t.lawful E
  have hmul' : (t.vec E).perLine ∣ n.toNat := by rw [t.vec_perLine]; exact hmul
  have hsz := Nat.div_mul_cancel (Nat.dvd_trans hI.line_dvd hmul')
  have ld : ∀ j, j < n.toNat / (t.vec E).size + 1 →
      Does R W (loadAlignedIf (t.vec E) v.srcAligned (src + j * (t.vec E).size)) fun _ => True := by
    intro j hj
    rw [t.load_if E hs]
    refine does_readVec fun i hi => ?_
    rw [Nat.add_assoc]
    refine hR _ ?_
    have h1 := reg_index_lt (w := (t.vec E).size) ⟨i, hi⟩ hj
    rw [Nat.succ_mul, hsz] at h1
    rw [← t.vec_size E]
    exact h1
  have hb : ∀ j r, j < n.toNat / (t.vec E).size →
      Does R W (copyvecBody (t.vec E) v.srcAligned v.dstAligned dest src (j * (t.vec E).size) r) fun _ => True := by
    intro j r hj
    unfold copyvecBody
    have h1 := ld (j + 1) (by omega)
    rw [Nat.succ_mul, Nat.add_comm (j * _), ← Nat.add_assoc] at h1
    refine Does.bind h1 fun _ _ => Does.bind (Q := fun _ => True) ?_ fun _ _ => Does.pure trivial
    rw [t.store_if E hd]
    refine does_writeVec fun i hi => ?_
    rw [Nat.add_assoc]
    exact upto hI hn hmul' hW _ (reg_index_lt ⟨i, hi⟩ hj)
  refine does_line hI hn hmul' (fun q r hq => ?_) ()
  obtain ⟨k, hk⟩ := hI.line_dvd
  obtain ⟨c, hc⟩ := hmul'
  have hpl : 0 < (t.vec E).perLine := hI.line_pos
  have hsp := (t.vec E).size_pos
  rw [hc, Nat.mul_div_cancel_left _ hpl] at hq
  have hJ : n.toNat / (t.vec E).size = k * c := by
    rw [hc, hk, Nat.mul_assoc, Nat.mul_div_cancel_left _ hsp]
  have e1 : q * (t.vec E).perLine = (k * q) * (t.vec E).size := by rw [hk]; ac_rfl
  have e2 : (t.vec E).perLine = k * (t.vec E).size := by rw [hk, Nat.mul_comm]
  have hle : k * q + k ≤ n.toNat / (t.vec E).size := by
    rw [hJ, ← Nat.mul_succ]
    exact Nat.mul_le_mul_left k hq
  unfold copyvecRun
  rw [if_neg (by omega), e1]
  refine Does.bind (ld (k * q) (by omega)) fun val _ => ?_
  rw [e2]
  exact Does.bind (does_unroll hb k (k * q) val hle) fun _ _ => Does.pure trivial

end unaligned

end Nova
