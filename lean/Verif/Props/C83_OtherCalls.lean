import Verif.Lemmas.AccessesMore
import Verif.Props.C15_Memory
import Verif.Props.C23_Meters
import Verif.Props.C27_Horizontal
import Verif.Props.C83_Threads

/-!
# C83, continued: which cells the fill, copy, accumulate, pan, meter and horizontal functions access

With `C83_threads` this settles which of these calls may run in different threads.  `copyvec_simd` is the
exception: it reads one vector behind its source, so it races with a thread that writes there.
-/

namespace Nova
open Spec
variable {α : Type}

theorem C83_accesses_zerovec (E : Env α) {out : Nat} {n : BitVec 32}
     :
    Accesses (fun _ => False) (bufCells out n.toNat)
      (zerovec E out n) :=
  (does_memset buf_of).accesses

theorem C83_accesses_setvec (E : Env α) {out : Nat} {f : α} {n : BitVec 32}
    (hn : 0 < n.toNat) :
    Accesses (fun _ => False) (bufCells out n.toNat)
      (setvec E out f n) :=
  (does_setvec hn buf_of).accesses

theorem C83_accesses_set_slope_vec (E : Env α) {out : Nat} {f s : α} {n : BitVec 32}
    (hn : 0 < n.toNat) :
    Accesses (fun _ => False) (bufCells out n.toNat)
      (setSlopeVec E out f s n) :=
  (does_setSlopeVec hn buf_of).accesses

theorem C83_accesses_set_exp_vec (E : Env α) {out : Nat} {f s : α} {n : BitVec 32}
    (hn : 0 < n.toNat) :
    Accesses (fun _ => False) (bufCells out n.toNat)
      (setExpVec E out f s n) :=
  (does_setExpVec hn buf_of).accesses

theorem C83_accesses_copyvec {out inp : Nat} {n : BitVec 32}
    (hdis : out + n.toNat ≤ inp ∨ inp + n.toNat ≤ out) :
    Accesses (bufCells inp n.toNat) (bufCells out n.toNat)
      (copyvec out inp n : Exec α Unit) :=
  (does_memcpy buf_of buf_of hdis).accesses

theorem C83_accesses_addvec (E : Env α) {out inp : Nat} {n : BitVec 32}
    (hn : 0 < n.toNat) :
    Accesses (fun j => bufCells inp n.toNat j ∨ bufCells out n.toNat j) (bufCells out n.toNat)
      (addvec E out inp n) :=
  (does_addvec hn (fun i hi => Or.inl (buf_of i hi)) (fun i hi => Or.inr (buf_of i hi)) buf_of).accesses

theorem C83_accesses_addvec_const (E : Env α) {out : Nat} {c : α} {n : BitVec 32}
    (hn : 0 < n.toNat) :
    Accesses (bufCells out n.toNat) (bufCells out n.toNat)
      (addvecConst E out c n) :=
  (does_addvecConst hn buf_of buf_of).accesses

theorem C83_accesses_pan2 (E : Env α) {out0 out1 inp : Nat} {f0 f1 : α} {n : BitVec 32}
    (hn : 0 < n.toNat) :
    Accesses (bufCells inp n.toNat) (fun j => bufCells out0 n.toNat j ∨ bufCells out1 n.toNat j)
      (pan2Vec E out0 out1 inp f0 f1 n) :=
  (does_pan2 hn buf_of (fun i hi => Or.inl (buf_of i hi))
    (fun i hi => Or.inr (buf_of i hi))).accesses

theorem C83_accesses_pan2_ramp (E : Env α) {out0 out1 inp : Nat} {f0 s0 f1 s1 : α} {n : BitVec 32}
    (hn : 0 < n.toNat) :
    Accesses (bufCells inp n.toNat) (fun j => bufCells out0 n.toNat j ∨ bufCells out1 n.toNat j)
      (pan2VecRamp E out0 out1 inp f0 s0 f1 s1 n) :=
  (does_pan2Ramp hn buf_of (fun i hi => Or.inl (buf_of i hi))
    (fun i hi => Or.inr (buf_of i hi))).accesses

theorem C83_accesses_peak (E : Env α) {inp peak : Nat} {n : BitVec 32}
    (hn : 0 < n.toNat) :
    Accesses (fun j => bufCells inp n.toNat j ∨ j = peak) ((· = peak))
      (peakVec E inp peak n) :=
  (does_peak hn (fun i hi => Or.inl (buf_of i hi)) (Or.inr rfl) (W := (· = peak)) rfl).accesses

theorem C83_accesses_peak_rms (E : Env α) {inp peak sum : Nat} {n : BitVec 32}
    (hn : 0 < n.toNat) :
    Accesses (fun j => bufCells inp n.toNat j ∨ j = peak ∨ j = sum) (fun j => j = peak ∨ j = sum)
      (peakRmsVec E inp peak sum n) :=
  (does_peakRms hn (fun i hi => Or.inl (buf_of i hi)) (Or.inr (Or.inl rfl)) (Or.inr (Or.inr rfl)) (Or.inl rfl)
    (Or.inr rfl)).accesses

theorem C83_accesses_horizontal_max (E : Env α) {lim : Limits α} {inp : Nat} {n : BitVec 32}
    (hn : 0 < n.toNat) :
    Accesses (bufCells inp n.toNat) (fun _ => False)
      (horizontalMaxVec E lim inp n) :=
  (does_fold hn buf_of).accesses

theorem C83_accesses_horizontal_min (E : Env α) {lim : Limits α} {inp : Nat} {n : BitVec 32}
    (hn : 0 < n.toNat) :
    Accesses (bufCells inp n.toNat) (fun _ => False)
      (horizontalMinVec E lim inp n) :=
  (does_fold hn buf_of).accesses

theorem C83_accesses_horizontal_sum (E : Env α) {inp : Nat} {n : BitVec 32}
    (hn : 0 < n.toNat) :
    Accesses (bufCells inp n.toNat) (fun _ => False)
      (horizontalSumVec E inp n) :=
  (does_fold hn buf_of).accesses

theorem C83_accesses_horizontal_minmax (E : Env α) {lim : Limits α} {inp : Nat} {n : BitVec 32}
    (hn : 0 < n.toNat) :
    Accesses (bufCells inp n.toNat) (fun _ => False)
      (horizontalMinmaxVec E lim inp n) :=
  (Does.bind (does_fold hn buf_of) fun _ _ => Does.pure (Q := fun _ => True) trivial).accesses

theorem C83_accesses_horizontal_maxsum (E : Env α) {lim : Limits α} {inp : Nat} {n : BitVec 32}
    (hn : 0 < n.toNat) :
    Accesses (bufCells inp n.toNat) (fun _ => False)
      (horizontalMaxsumVec E lim inp n) :=
  (does_fold hn buf_of).accesses

/-! ## SIMD versions -/

theorem line_dvd_vec (t : Target) (E : Env α) {n : Nat} (h : t.perLine ∣ n) : (t.vec E).perLine ∣ n := by
  rw [t.vec_perLine]; exact h

theorem size_dvd_vec (t : Target) (E : Env α) {k n : Nat} (h : k * t.size ∣ n) : k * (t.vec E).size ∣ n := by
  rw [t.vec_size]; exact h

theorem C83_accesses_zerovec_simd (t : Target) (E : Env α) {aligned : Bool} {out : Nat} {n : BitVec 32}
    (hn : 0 < n.toNat) (hmul : t.perLine ∣ n.toNat)
    (ho : t.AddrOk aligned out) :
    Accesses (fun _ => False) (bufCells out n.toNat)
      (zerovecSimd (t.vec E) aligned out n) :=
  (does_detailSetvec t E hn hmul ho buf_of).accesses

theorem C83_accesses_setvec_simd (t : Target) (E : Env α) {aligned : Bool} {out : Nat} {f : α} {n : BitVec 32}
    (hn : 0 < n.toNat) (hmul : t.perLine ∣ n.toNat)
    (ho : t.AddrOk aligned out) :
    Accesses (fun _ => False) (bufCells out n.toNat)
      (setvecSimd (t.vec E) aligned out f n) :=
  (does_detailSetvec t E hn hmul ho buf_of).accesses

theorem C83_accesses_set_slope_vec_simd (t : Target) (E : Env α) {out : Nat} {f s : α} {n : BitVec 32}
    (hn : 0 < n.toNat) (hmul : t.perLine ∣ n.toNat)
    (ho : t.align ∣ out) :
    Accesses (fun _ => False) (bufCells out n.toNat)
      (setSlopeVecSimd E (t.vec E) out f s n) :=
  (does_setSlopeSimd (t.lawful E) hn (line_dvd_vec t E hmul) ho buf_of).accesses

theorem C83_accesses_set_exp_vec_simd (t : Target) (E : Env α) {out : Nat} {f s : α} {n : BitVec 32}
    (hn : 0 < n.toNat) (hmul : t.perLine ∣ n.toNat)
    (ho : t.align ∣ out) :
    Accesses (fun _ => False) (bufCells out n.toNat)
      (setExpVecSimd E (t.vec E) out f s n) :=
  (does_setExpSimd (t.lawful E) hn (line_dvd_vec t E hmul) ho buf_of).accesses

/-- `copyvec_simd` reads one vector more than its source; see `C83_negation_copyvec`. -/
theorem C83_accesses_copyvec_simd_partial (t : Target) (E : Env α) {v : CopyVariant} {out inp : Nat} {n : BitVec 32}
    (hn : 0 < n.toNat) (hmul : t.perLine ∣ n.toNat)
    (hs : t.AddrOk v.srcAligned inp) (ho : t.AddrOk v.dstAligned out) :
    Accesses (bufCells inp (n.toNat + t.size)) (bufCells out n.toNat)
      (copyvecSimd' (t.vec E) v out inp n) :=
  (does_copySimd t E hn hmul hs ho buf_of buf_of).accesses

theorem C83_negation_copyvec [Inhabited α] (t : Target) (E : Env α) (v : CopyVariant) {out inp : Nat} {n : BitVec 32}
    (hn : 0 < n.toNat) (hmul : t.perLine ∣ n.toNat) (hs : t.AddrOk v.srcAligned inp)
    (ho : t.AddrOk v.dstAligned out) (hdis : out + n.toNat ≤ inp) :
    ¬ Accesses (bufCells inp n.toNat) (bufCells out n.toNat) (copyvecSimd' (t.vec E) v out inp n) := by
  rintro ⟨p, hp, hw⟩
  let m : Mem α := fun _ => some default
  have h1 := C18_copyvec_simd_partial t E v (m := m) (x := fun _ => default) hn hmul hs ho
    (fun _ _ => rfl) (fun _ _ => rfl) (fun _ _ => rfl) (Or.inl (by omega))
  rw [← hp] at h1
  obtain ⟨⟨m2, h2, -⟩, -⟩ := Prog.run_agree hw
    (m2 := onlyCells m fun a => bufCells out n.toNat a ∨ bufCells inp n.toNat a) h1 (fun a ha => if_pos ha.symm)
  obtain ⟨e, he⟩ := C19_false t E v n hn hmul (m := m) hs ho hdis
  rw [hp, he] at h2
  cases h2

theorem C83_accesses_addvec_simd (t : Target) (E : Env α) {out inp : Nat} {n : BitVec 32}
    (hn : 0 < n.toNat) (hmul : t.perLine ∣ n.toNat)
    (ho : t.align ∣ out) (hi : t.align ∣ inp) :
    Accesses (fun j => bufCells inp n.toNat j ∨ bufCells out n.toNat j) (bufCells out n.toNat)
      (addvecSimd (t.vec E) out inp n) :=
  (does_addvecSimd (t.lawful E) hn (line_dvd_vec t E hmul) ho hi (fun i hi => Or.inl (buf_of i hi))
    (fun i hi => Or.inr (buf_of i hi)) buf_of).accesses

theorem C83_accesses_addvec_const_simd (t : Target) (E : Env α) {out : Nat} {c : α} {n : BitVec 32}
    (hn : 0 < n.toNat) (hmul : t.perLine ∣ n.toNat)
    (ho : t.align ∣ out) :
    Accesses (bufCells out n.toNat) (bufCells out n.toNat)
      (addvecConstSimd (t.vec E) out c n) :=
  (does_addvecConstSimd (t.lawful E) hn (line_dvd_vec t E hmul) ho buf_of buf_of).accesses

theorem C83_accesses_pan2_simd (t : Target) (E : Env α) {out0 out1 inp : Nat} {f0 f1 : α} {n : BitVec 32}
    (hn : 0 < n.toNat) (hmul : t.perLine ∣ n.toNat)
    (h0 : t.align ∣ out0) (h1 : t.align ∣ out1) (hi : t.align ∣ inp) :
    Accesses (bufCells inp n.toNat) (fun j => bufCells out0 n.toNat j ∨ bufCells out1 n.toNat j)
      (pan2VecSimd (t.vec E) out0 out1 inp f0 f1 n) :=
  (does_pan2Simd (t.lawful E) hn (line_dvd_vec t E hmul) h0 h1 hi buf_of (fun i hi => Or.inl (buf_of i hi))
    (fun i hi => Or.inr (buf_of i hi))).accesses

theorem C83_accesses_pan2_ramp_simd (t : Target) (E : Env α) {out0 out1 inp : Nat} {f0 s0 f1 s1 : α} {n : BitVec 32}
    (hn : 0 < n.toNat) (hmul : t.perLine ∣ n.toNat)
    (h0 : t.align ∣ out0) (h1 : t.align ∣ out1) (hi : t.align ∣ inp) :
    Accesses (bufCells inp n.toNat) (fun j => bufCells out0 n.toNat j ∨ bufCells out1 n.toNat j)
      (pan2VecRampSimd (t.vec E) out0 out1 inp f0 s0 f1 s1 n) :=
  (does_pan2RampSimd (t.lawful E) hn (line_dvd_vec t E hmul) h0 h1 hi buf_of (fun i hi => Or.inl (buf_of i hi))
    (fun i hi => Or.inr (buf_of i hi))).accesses

theorem C83_accesses_peak_simd (t : Target) (E : Env α) {inp peak : Nat} {n : BitVec 32}
    (hn : 0 < n.toNat) (hmul : 4 * t.size ∣ n.toNat) (hi : t.align ∣ inp) :
    Accesses (fun j => bufCells inp n.toNat j ∨ j = peak) ((· = peak))
      (peakVecSimd (t.vec E) inp peak n) :=
  (does_peakSimd (t.lawful E) hn (t.four_size_small E) (size_dvd_vec t E hmul) hi (fun i hi => Or.inl (buf_of i hi)) (W := (· = peak)) rfl (does_loadFirst t E (Or.inr rfl))).accesses

theorem C83_accesses_peak_rms_simd (t : Target) (E : Env α) {inp peak sum : Nat} {n : BitVec 32}
    (hn : 0 < n.toNat) (hmul : 4 * t.size ∣ n.toNat) (hi : t.align ∣ inp) :
    Accesses (fun j => bufCells inp n.toNat j ∨ j = peak ∨ j = sum) (fun j => j = peak ∨ j = sum)
      (peakRmsVecSimd (t.vec E) inp peak sum n) :=
  (does_peakRmsSimd (t.lawful E) hn (t.four_size_small E) (size_dvd_vec t E hmul) hi (fun i hi => Or.inl (buf_of i hi)) (Or.inl rfl) (Or.inr rfl) (does_loadFirst t E (Or.inr (Or.inl rfl)))
    (does_loadFirst t E (Or.inr (Or.inr rfl)))).accesses

theorem C83_accesses_horizontal_max_simd (t : Target) (E : Env α) {lim : Limits α} {inp : Nat} {n : BitVec 32}
    (hn : 0 < n.toNat) (hmul : t.size ∣ n.toNat) (hi : t.align ∣ inp) :
    Accesses (bufCells inp n.toNat) (fun _ => False)
      (horizontalMaxVecSimd (t.vec E) lim inp n) :=
  (Does.bind (does_foldSimd (t.lawful E) hn (by rw [t.vec_size]; exact hmul) (t.vec_size_small E) hi buf_of)
    fun _ _ => Does.pure (Q := fun _ => True) trivial).accesses

theorem C83_accesses_horizontal_min_simd (t : Target) (E : Env α) {lim : Limits α} {inp : Nat} {n : BitVec 32}
    (hn : 0 < n.toNat) (hmul : t.size ∣ n.toNat) (hi : t.align ∣ inp) :
    Accesses (bufCells inp n.toNat) (fun _ => False)
      (horizontalMinVecSimd (t.vec E) lim inp n) :=
  (Does.bind (does_foldSimd (t.lawful E) hn (by rw [t.vec_size]; exact hmul) (t.vec_size_small E) hi buf_of)
    fun _ _ => Does.pure (Q := fun _ => True) trivial).accesses

theorem C83_accesses_horizontal_sum_simd (t : Target) (E : Env α) {inp : Nat} {n : BitVec 32}
    (hn : 0 < n.toNat) (hmul : t.size ∣ n.toNat) (hi : t.align ∣ inp) :
    Accesses (bufCells inp n.toNat) (fun _ => False)
      (horizontalSumVecSimd E (t.vec E) inp n) :=
  (Does.bind (does_foldSimd (t.lawful E) hn (by rw [t.vec_size]; exact hmul) (t.vec_size_small E) hi buf_of)
    fun _ _ => Does.pure (Q := fun _ => True) trivial).accesses

theorem C83_accesses_horizontal_minmax_simd (t : Target) (E : Env α) {lim : Limits α} {inp : Nat} {n : BitVec 32}
    (hn : 0 < n.toNat) (hmul : t.size ∣ n.toNat) (hi : t.align ∣ inp) :
    Accesses (bufCells inp n.toNat) (fun _ => False)
      (horizontalMinmaxVecSimd (t.vec E) lim inp n) :=
  (Does.bind (does_foldSimd (t.lawful E) hn (by rw [t.vec_size]; exact hmul) (t.vec_size_small E) hi buf_of)
    fun _ _ => Does.pure (Q := fun _ => True) trivial).accesses

theorem C83_accesses_horizontal_maxsum_simd (t : Target) (E : Env α) {lim : Limits α} {inp : Nat} {n : BitVec 32}
    (hn : 0 < n.toNat) (hmul : t.size ∣ n.toNat) (hi : t.align ∣ inp) :
    Accesses (bufCells inp n.toNat) (fun _ => False)
      (horizontalMaxsumVecSimd E (t.vec E) lim inp n) :=
  (Does.bind (does_foldSimd (t.lawful E) hn (by rw [t.vec_size]; exact hmul) (t.vec_size_small E) hi buf_of)
    fun _ _ => Does.pure (Q := fun _ => True) trivial).accesses

/-- Two threads: one adds a buffer to another while the other takes the peak of a third. -/
example (E : Env Int) : RaceFree
    (fun i : Fin 2 => if i = 0 then fun j => bufCells 0 16 j ∨ bufCells 16 16 j else fun j => bufCells 0 16 j ∨ j = 40)
    (fun i : Fin 2 => if i = 0 then bufCells 16 16 else fun j => j = 40) ∧
    Accesses (fun j => bufCells 0 (16#32).toNat j ∨ bufCells 16 (16#32).toNat j) (bufCells 16 (16#32).toNat)
      (addvecSimd (Target.vec (.sse true true) E) 16 0 16) ∧
    Accesses (fun j => bufCells 0 (16#32).toNat j ∨ j = 40) (fun j => j = 40)
      (peakVecSimd (Target.vec (.sse true true) E) 0 40 16) := by
  refine ⟨?_, C83_accesses_addvec_simd _ E (by decide) (by decide) (by decide) (by decide),
    C83_accesses_peak_simd _ E (by decide) (by decide) (by decide)⟩
  intro i j hij a h
  fin_cases i <;> fin_cases j <;> simp_all [bufCells] <;> omega

/-- The hypotheses of the statements about `copyvec_simd` can be met: SSE2 doubles, source at 8. -/
example (E : Env Int) :
    Accesses (bufCells 8 ((8#32).toNat + 2)) (bufCells 0 (8#32).toNat) (copyvecSimd' (Target.sse2.vec E) .aa 0 8 8) ∧
    ¬ Accesses (bufCells 8 (8#32).toNat) (bufCells 0 (8#32).toNat) (copyvecSimd' (Target.sse2.vec E) .aa 0 8 8) :=
  ⟨C83_accesses_copyvec_simd_partial .sse2 E (by decide) (by decide) (fun _ => by decide) (fun _ => by decide),
    C83_negation_copyvec .sse2 E .aa (by decide) (by decide) (fun _ => by decide) (fun _ => by decide) (by decide)⟩

end Nova
