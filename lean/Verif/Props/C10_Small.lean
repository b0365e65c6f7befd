import Verif.Props.C11_Placement

/-!
# C10: sizes below the granule, remaining functions

Scalar functions with `n = 0` and SIMD functions with fewer elements than one pass of their loop go
through the loop `2^32` times.
-/

namespace Nova
open Spec
variable {α : Type}

/-! ## Scalar functions with `n = 0` -/

/-- A loop `do { body } while (--n)` entered with 0 whose body accesses `p + k` in iteration `k`. -/
theorem faults_of_doWhile_zero {σ β : Type} {body : σ → Exec α σ} {s : σ} {m : Mem α} {p : Nat}
    {k : σ → Exec α β} (at_ : σ → Nat) (h0 : at_ s = p)
    (hb : ∀ s m1, SameDom m m1 → Ensures (body s) m1 fun s' m2 =>
      at_ s' = at_ s + 1 ∧ SameDom m m2 ∧ (m (at_ s)).isSome)
    (hm : ¬ Allocated m p (2 ^ 32)) :
    ∃ e, (doWhile body 0#32 s >>= k) m = .error e := by
  have h := ensures_iterM (body := body) (Inv := fun q s m' => at_ s = p + q ∧ SameDom m m')
    (Q := fun q => (m (p + q)).isSome) (by
      rintro q s m1 ⟨hs, hd⟩
      refine Ensures.mono (hb s m1 hd) ?_
      rintro s' m2 ⟨e, d, a⟩
      refine ⟨⟨by rw [e, hs]; omega, d⟩, by rw [← hs]; exact a⟩) (2 ^ 32) 0 s m ⟨h0, SameDom.refl m⟩
  refine faults_of_ensures (P := Allocated m p (2 ^ 32)) ?_ hm
  apply Ensures.first
  rw [doWhile_eq_iterM]
  refine Ensures.mono (show Ensures (iterM body (tripCount 0#32) s) m _ from h) ?_
  intro _ _ h i hi
  exact h.2 i (by omega) (by omega)

theorem C10_setvec_scalar (E : Env α) {m : Mem α} {dest : Nat} {f : α}
    (hm : ¬ Allocated m dest (2 ^ 32)) : ∃ e, setvec E dest f 0#32 m = .error e := by
  unfold setvec assertNonzero
  split
  · exact ⟨_, rfl⟩
  · refine faults_of_doWhile_zero (fun d => d) rfl ?_ hm
    intro d m1 h1
    apply Ensures.bind
    refine Ensures.mono ensures_write ?_
    intro _ m2 ⟨h2, ha⟩
    exact Ensures.pure ⟨rfl, h1.trans h2, by rw [← h1]; exact ha⟩

theorem C10_set_slope_scalar (E : Env α) {m : Mem α} {dest : Nat} {f slope : α}
    (hm : ¬ Allocated m dest (2 ^ 32)) : ∃ e, setSlopeVec E dest f slope 0#32 m = .error e := by
  unfold setSlopeVec assertNonzero
  split
  · exact ⟨_, rfl⟩
  · refine faults_of_doWhile_zero (fun d => d.1) rfl ?_ hm
    intro d m1 h1
    apply Ensures.bind
    refine Ensures.mono ensures_write ?_
    intro _ m2 ⟨h2, ha⟩
    exact Ensures.pure ⟨rfl, h1.trans h2, by rw [← h1]; exact ha⟩

theorem C10_set_exp_scalar (E : Env α) {m : Mem α} {dest : Nat} {f curve : α}
    (hm : ¬ Allocated m dest (2 ^ 32)) : ∃ e, setExpVec E dest f curve 0#32 m = .error e := by
  unfold setExpVec assertNonzero
  split
  · exact ⟨_, rfl⟩
  · refine faults_of_doWhile_zero (fun d => d.1) rfl ?_ hm
    intro d m1 h1
    apply Ensures.bind
    refine Ensures.mono ensures_write ?_
    intro _ m2 ⟨h2, ha⟩
    exact Ensures.pure ⟨rfl, h1.trans h2, by rw [← h1]; exact ha⟩

/-- In a build with assertions `setvec`, `set_slope_vec` and `set_exp_vec` stop at `n = 0` whatever the
buffer is. -/
theorem C10_assertion (E : Env α) (hE : E.ndebug = false) {m : Mem α} {dest : Nat} {f s : α} :
    setvec E dest f 0#32 m = .error .assertion ∧ setSlopeVec E dest f s 0#32 m = .error .assertion ∧
      setExpVec E dest f s 0#32 m = .error .assertion := by
  refine ⟨?_, ?_, ?_⟩
  · unfold setvec assertNonzero; rw [if_pos ⟨rfl, hE⟩]; rfl
  · unfold setSlopeVec assertNonzero; rw [if_pos ⟨rfl, hE⟩]; rfl
  · unfold setExpVec assertNonzero; rw [if_pos ⟨rfl, hE⟩]; rfl

/-- `zerovec` and `copyvec` use `memset` and `memcpy`: with `n = 0` they do nothing. -/
theorem C10_mem_zero (E : Env α) (m : Mem α) (dest src : Nat) :
    zerovec E dest 0#32 m = .ok ((), m) ∧ copyvec dest src 0#32 m = .ok ((), m) := by
  have h0 : ∀ p, m.allocated p (0#32).toNat := fun p i => absurd i.isLt (Nat.not_lt_zero _)
  constructor
  · unfold zerovec memsetZero
    rw [if_pos (h0 dest)]
    congr 2
    funext a
    rw [if_neg]
    show ¬ (dest ≤ a ∧ a < dest + 0)
    omega
  · unfold copyvec memcpy
    rw [if_pos ⟨h0 dest, h0 src⟩, if_pos (Or.inl (show (0#32).toNat = 0 from rfl))]
    congr 2
    funext a
    rw [if_neg]
    show ¬ (dest ≤ a ∧ a < dest + 0)
    omega

theorem C10_addvec_scalar (E : Env α) {m : Mem α} {out inp : Nat}
    (hm : ¬ Allocated m out (2 ^ 32)) : ∃ e, addvec E out inp 0#32 m = .error e := by
  refine faults_of_doWhile_zero (fun d => d.1) rfl ?_ hm
  intro d m1 h1
  apply Ensures.bind
  refine Ensures.mono ensures_read ?_
  rintro x _ ⟨rfl, _⟩
  apply Ensures.bind
  refine Ensures.mono ensures_read ?_
  rintro y _ ⟨rfl, ha⟩
  apply Ensures.bind
  refine Ensures.mono ensures_write ?_
  intro _ m2 ⟨h2, _⟩
  exact Ensures.pure ⟨rfl, h1.trans h2, by rw [← h1]; exact ha⟩

theorem C10_addvec_const_scalar (E : Env α) {m : Mem α} {out : Nat} {c : α}
    (hm : ¬ Allocated m out (2 ^ 32)) : ∃ e, addvecConst E out c 0#32 m = .error e := by
  refine faults_of_doWhile_zero (fun d => d) rfl ?_ hm
  intro d m1 h1
  apply Ensures.bind
  refine Ensures.mono ensures_read ?_
  rintro y _ ⟨rfl, ha⟩
  apply Ensures.bind
  refine Ensures.mono ensures_write ?_
  intro _ m2 ⟨h2, _⟩
  exact Ensures.pure ⟨rfl, h1.trans h2, by rw [← h1]; exact ha⟩

/-- `pan2_vec` with constant or ramped gains: all three buffers would have to be `2^32` long. -/
theorem C10_pan2_scalar (E : Env α) {m : Mem α} {out0 out1 inp p : Nat} {f0 f1 : α}
    (hp : p = out0 ∨ p = out1 ∨ p = inp) (hm : ¬ Allocated m p (2 ^ 32)) :
    ∃ e, pan2Vec E out0 out1 inp f0 f1 0#32 m = .error e := by
  have key : ∀ (d : Nat × Nat × Nat) (m1 : Mem α), SameDom m m1 →
      Ensures (do
        let (out0, out1, inp) := d
        let sig ← read inp
        write out0 (E.S.mul sig f0)
        write out1 (E.S.mul sig f1)
        pure (out0 + 1, out1 + 1, inp + 1)) m1 fun s' m2 =>
          s' = (d.1 + 1, d.2.1 + 1, d.2.2 + 1) ∧ SameDom m m2 ∧
            (m d.1).isSome ∧ (m d.2.1).isSome ∧ (m d.2.2).isSome := by
    intro d m1 h1
    apply Ensures.bind
    refine Ensures.mono ensures_read ?_
    rintro sig _ ⟨rfl, ai⟩
    apply Ensures.bind
    refine Ensures.mono ensures_write ?_
    intro _ m2 ⟨h2, a0⟩
    apply Ensures.bind
    refine Ensures.mono ensures_write ?_
    intro _ m3 ⟨h3, a1⟩
    have h12 := h1.trans h2
    exact Ensures.pure ⟨rfl, h12.trans h3, by rw [← h1]; exact a0, by rw [← h12]; exact a1,
      by rw [← h1]; exact ai⟩
  rcases hp with rfl | rfl | rfl
  · exact faults_of_doWhile_zero (fun d => d.1) rfl (fun d m1 h1 =>
      Ensures.mono (key d m1 h1) fun _ _ h => ⟨by rw [h.1], h.2.1, h.2.2.1⟩) hm
  · exact faults_of_doWhile_zero (fun d => d.2.1) rfl (fun d m1 h1 =>
      Ensures.mono (key d m1 h1) fun _ _ h => ⟨by rw [h.1], h.2.1, h.2.2.2.1⟩) hm
  · exact faults_of_doWhile_zero (fun d => d.2.2) rfl (fun d m1 h1 =>
      Ensures.mono (key d m1 h1) fun _ _ h => ⟨by rw [h.1], h.2.1, h.2.2.2.2⟩) hm

theorem C10_pan2_ramp_scalar (E : Env α) {m : Mem α} {out0 out1 inp p : Nat} {f0 s0 f1 s1 : α}
    (hp : p = out0 ∨ p = out1 ∨ p = inp) (hm : ¬ Allocated m p (2 ^ 32)) :
    ∃ e, pan2VecRamp E out0 out1 inp f0 s0 f1 s1 0#32 m = .error e := by
  have key : ∀ (d : (Nat × Nat × Nat) × α × α) (m1 : Mem α), SameDom m m1 →
      Ensures (do
        let ((out0, out1, inp), f0, f1) := d
        let sig ← read inp
        write out0 (E.S.mul sig f0)
        write out1 (E.S.mul sig f1)
        pure ((out0 + 1, out1 + 1, inp + 1), E.S.add f0 s0, E.S.add f1 s1)) m1 fun s' m2 =>
          s'.1 = (d.1.1 + 1, d.1.2.1 + 1, d.1.2.2 + 1) ∧ SameDom m m2 ∧
            (m d.1.1).isSome ∧ (m d.1.2.1).isSome ∧ (m d.1.2.2).isSome := by
    intro d m1 h1
    apply Ensures.bind
    refine Ensures.mono ensures_read ?_
    rintro sig _ ⟨rfl, ai⟩
    apply Ensures.bind
    refine Ensures.mono ensures_write ?_
    intro _ m2 ⟨h2, a0⟩
    apply Ensures.bind
    refine Ensures.mono ensures_write ?_
    intro _ m3 ⟨h3, a1⟩
    have h12 := h1.trans h2
    exact Ensures.pure ⟨rfl, h12.trans h3, by rw [← h1]; exact a0, by rw [← h12]; exact a1,
      by rw [← h1]; exact ai⟩
  rcases hp with rfl | rfl | rfl
  · exact faults_of_doWhile_zero (fun d => d.1.1) rfl (fun d m1 h1 =>
      Ensures.mono (key d m1 h1) fun _ _ h => ⟨by rw [h.1], h.2.1, h.2.2.1⟩) hm
  · exact faults_of_doWhile_zero (fun d => d.1.2.1) rfl (fun d m1 h1 =>
      Ensures.mono (key d m1 h1) fun _ _ h => ⟨by rw [h.1], h.2.1, h.2.2.2.1⟩) hm
  · exact faults_of_doWhile_zero (fun d => d.1.2.2) rfl (fun d m1 h1 =>
      Ensures.mono (key d m1 h1) fun _ _ h => ⟨by rw [h.1], h.2.1, h.2.2.2.2⟩) hm

/-- The loop of the horizontal functions. -/
theorem foldVec_zero_faults {σ β : Type} {f : σ → α → σ} {init : σ} {m : Mem α} {inp : Nat}
    {k : σ → Exec α β} (hm : ¬ Allocated m inp (2 ^ 32)) :
    ∃ e, (foldVec f init inp 0#32 >>= k) m = .error e := by
  have : ∃ e, foldVec f init inp 0#32 m = .error e := by
    refine faults_of_doWhile_zero (fun d => d.1) rfl ?_ hm
    intro d m1 h1
    apply Ensures.bind
    refine Ensures.mono ensures_read ?_
    rintro x _ ⟨rfl, ha⟩
    exact Ensures.pure ⟨rfl, h1, by rw [← h1]; exact ha⟩
  obtain ⟨e, he⟩ := this
  exact ⟨e, Exec.bind_error he⟩

theorem C10_horizontal_scalar (E : Env α) (lim : Limits α) {m : Mem α} {inp : Nat}
    (hm : ¬ Allocated m inp (2 ^ 32)) :
    (∃ e, horizontalMaxVec E lim inp 0#32 m = .error e) ∧
    (∃ e, horizontalMinVec E lim inp 0#32 m = .error e) ∧
    (∃ e, horizontalSumVec E inp 0#32 m = .error e) ∧
    (∃ e, horizontalMinmaxVec E lim inp 0#32 m = .error e) ∧
    (∃ e, horizontalMaxsumVec E lim inp 0#32 m = .error e) := by
  have plain : ∀ {σ : Type} (f : σ → α → σ) (init : σ), ∃ e, foldVec f init inp 0#32 m = .error e := by
    intro σ f init
    refine faults_of_doWhile_zero (fun d => d.1) rfl ?_ hm
    intro d m1 h1
    apply Ensures.bind
    refine Ensures.mono ensures_read ?_
    rintro x _ ⟨rfl, ha⟩
    exact Ensures.pure ⟨rfl, h1, by rw [← h1]; exact ha⟩
  exact ⟨plain _ _, plain _ _, plain _ _, foldVec_zero_faults hm, plain _ _⟩

theorem C10_peak_scalar (E : Env α) {m : Mem α} {inp peak : Nat}
    (hm : ¬ Allocated m inp (2 ^ 32)) : ∃ e, peakVec E inp peak 0#32 m = .error e := by
  unfold peakVec
  cases hr : read peak m with
  | error e => exact ⟨e, Exec.bind_error hr⟩
  | ok r =>
    obtain ⟨v, m'⟩ := r
    have hmm := (ensures_read _ _ hr).1
    subst hmm
    rw [Exec.bind_ok hr]
    refine faults_of_doWhile_zero (fun d => d.1) rfl ?_ hm
    intro d m1 h1
    apply Ensures.bind
    refine Ensures.mono ensures_read ?_
    rintro x _ ⟨rfl, ha⟩
    exact Ensures.pure ⟨rfl, h1, by rw [← h1]; exact ha⟩

theorem C10_peak_rms_scalar (E : Env α) {m : Mem α} {inp peak sum : Nat}
    (hm : ¬ Allocated m inp (2 ^ 32)) : ∃ e, peakRmsVec E inp peak sum 0#32 m = .error e := by
  unfold peakRmsVec
  cases hr : read peak m with
  | error e => exact ⟨e, Exec.bind_error hr⟩
  | ok r =>
    obtain ⟨v, m'⟩ := r
    have hmm := (ensures_read _ _ hr).1
    subst hmm
    rw [Exec.bind_ok hr]
    cases hr2 : read sum m' with
    | error e => exact ⟨e, Exec.bind_error hr2⟩
    | ok r =>
      obtain ⟨v2, m''⟩ := r
      have hmm := (ensures_read _ _ hr2).1
      subst hmm
      rw [Exec.bind_ok hr2]
      refine faults_of_doWhile_zero (fun d => d.1) rfl ?_ hm
      intro d m1 h1
      apply Ensures.bind
      refine Ensures.mono ensures_read ?_
      rintro x _ ⟨rfl, ha⟩
      exact Ensures.pure ⟨rfl, h1, by rw [← h1]; exact ha⟩

/-! ## SIMD functions with fewer elements than one pass -/
section simd
variable (t : Target) (E : Env α) {m : Mem α} {n : BitVec 32}

theorem faults_of_cacheline {ρ : Type} {body : Nat → ρ → Exec α ρ} {p : Nat} {r : ρ}
    (hb : ∀ j r m1, SameDom m m1 → Ensures (body (j * (t.vec E).size) r) m1 fun _ m2 =>
        SameDom m m2 ∧ Allocated m (p + j * (t.vec E).size) (t.vec E).size)
    (hn : n.toNat < t.perLine) (hm : ¬ Allocated m p (2 ^ 32 * t.perLine)) :
    ∃ e, cachelineLoop (t.vec E) (unrollTmpl (t.vec E) body (t.vec E).perLine) n r m = .error e := by
  refine faults_of_ensures (Ensures.mono (ensures_cacheline_unroll (t.lawful E) hb n r) fun _ _ h => h.2) ?_
  intro h
  rw [tripCount_div_lt (t.lawful E).line_small (by rw [t.vec_perLine]; exact hn), t.vec_perLine] at h
  exact hm h

theorem C10_set_slope_small {dest : Nat} {f slope : α} (hn : n.toNat < t.perLine) (hal : t.align ∣ dest)
    (hm : ¬ Allocated m dest (2 ^ 32 * t.perLine)) :
    ∃ e, setSlopeVecSimd E (t.vec E) dest f slope n m = .error e := by
  obtain ⟨e, he⟩ := faults_of_cacheline t E (m := m) (r := ((t.vec E).setSlope f slope).1)
    (body := slopeBody (t.vec E) dest ((t.vec E).setVec (E.S.mul (E.S.lit (t.vec E).size) slope))) (p := dest) (by
      intro j r m1 h1
      unfold slopeBody
      rw [(t.lawful E).storeAligned _ _ (aligned_reg (t.lawful E) hal)]
      apply Ensures.bind
      refine Ensures.mono ensures_writeVec ?_
      intro _ m2 ⟨h2, ha⟩
      exact Ensures.pure ⟨h1.trans h2, h1.allocated ha⟩) hn hm
  exact ⟨e, Exec.bind_error he⟩

theorem C10_set_exp_small {dest : Nat} {f curve : α} (hn : n.toNat < t.perLine) (hal : t.align ∣ dest)
    (hm : ¬ Allocated m dest (2 ^ 32 * t.perLine)) :
    ∃ e, setExpVecSimd E (t.vec E) dest f curve n m = .error e := by
  obtain ⟨e, he⟩ := faults_of_cacheline t E (m := m) (r := ((t.vec E).setExp f curve).1)
    (body := expBody (t.vec E) dest ((t.vec E).setVec (powI E.S curve (t.vec E).size))) (p := dest) (by
      intro j r m1 h1
      unfold expBody
      rw [(t.lawful E).storeAligned _ _ (aligned_reg (t.lawful E) hal)]
      apply Ensures.bind
      refine Ensures.mono ensures_writeVec ?_
      intro _ m2 ⟨h2, ha⟩
      exact Ensures.pure ⟨h1.trans h2, h1.allocated ha⟩) hn hm
  exact ⟨e, Exec.bind_error he⟩

theorem C10_zerovec_small (aligned : Bool) {dest : Nat} (hn : n.toNat < t.perLine)
    (hal : t.AddrOk aligned dest) (hm : ¬ Allocated m dest (2 ^ 32 * t.perLine)) :
    ∃ e, zerovecSimd (t.vec E) aligned dest n m = .error e :=
  faults_of_cacheline t E (body := setvecBody (t.vec E) aligned dest (t.vec E).clear) (by
      intro j r m1 h1
      unfold setvecBody
      rw [t.store_if E hal]
      refine Ensures.mono ensures_writeVec ?_
      intro _ m2 ⟨h2, ha⟩
      exact ⟨h1.trans h2, h1.allocated ha⟩) hn hm

theorem C10_addvec_const_small {out : Nat} {c : α} (hn : n.toNat < t.perLine) (hal : t.align ∣ out)
    (hm : ¬ Allocated m out (2 ^ 32 * t.perLine)) :
    ∃ e, addvecConstSimd (t.vec E) out c n m = .error e :=
  faults_of_cacheline t E (body := addvecConstBody (t.vec E) out ((t.vec E).setVec c)) (by
      intro j r m1 h1
      unfold addvecConstBody
      rw [(t.lawful E).loadAligned _ (aligned_reg (t.lawful E) hal)]
      apply Ensures.bind
      refine Ensures.mono ensures_readVec ?_
      rintro v1 _ ⟨rfl, ha⟩
      rw [(t.lawful E).storeAligned _ _ (aligned_reg (t.lawful E) hal)]
      refine Ensures.mono ensures_writeVec ?_
      intro _ m2 ⟨h2, _⟩
      exact ⟨h1.trans h2, h1.allocated ha⟩) hn hm

theorem C10_pan2_small {out0 out1 inp : Nat} {f0 f1 : α} (hn : n.toNat < t.perLine)
    (a0 : t.align ∣ out0) (a1 : t.align ∣ out1) (hm : ¬ Allocated m out0 (2 ^ 32 * t.perLine)) :
    ∃ e, pan2VecSimd (t.vec E) out0 out1 inp f0 f1 n m = .error e :=
  faults_of_cacheline t E
    (body := pan2Body (t.vec E) out0 out1 inp ((t.vec E).setVec f0) ((t.vec E).setVec f1)) (by
      intro j r m1 h1
      unfold pan2Body
      apply Ensures.bind
      refine Ensures.mono ((t.domLaws E).loadAligned _ _) ?_
      rintro v1 _ rfl
      dsimp only
      rw [(t.lawful E).storeAligned _ _ (aligned_reg (t.lawful E) a0),
        (t.lawful E).storeAligned _ _ (aligned_reg (t.lawful E) a1)]
      apply Ensures.bind
      refine Ensures.mono ensures_writeVec ?_
      intro _ m2 ⟨h2, ha⟩
      refine Ensures.mono ensures_writeVec ?_
      intro _ m3 ⟨h3, _⟩
      exact ⟨(h1.trans h2).trans h3, h1.allocated ha⟩) hn hm

theorem C10_pan2_ramp_small {out0 out1 inp : Nat} {f0 s0 f1 s1 : α} (hn : n.toNat < t.perLine)
    (a0 : t.align ∣ out0) (a1 : t.align ∣ out1) (hm : ¬ Allocated m out0 (2 ^ 32 * t.perLine)) :
    ∃ e, pan2VecRampSimd (t.vec E) out0 out1 inp f0 s0 f1 s1 n m = .error e := by
  obtain ⟨e, he⟩ := faults_of_cacheline t E (m := m) (p := out0)
    (r := (((t.vec E).setSlope f0 s0).1, ((t.vec E).setSlope f1 s1).1))
    (body := pan2RampBody (t.vec E) out0 out1 inp ((t.vec E).setVec ((t.vec E).setSlope f0 s0).2)
      ((t.vec E).setVec ((t.vec E).setSlope f1 s1).2)) (by
      intro j r m1 h1
      unfold pan2RampBody
      apply Ensures.bind
      refine Ensures.mono ((t.domLaws E).loadAligned _ _) ?_
      rintro v1 _ rfl
      dsimp only
      rw [(t.lawful E).storeAligned _ _ (aligned_reg (t.lawful E) a0),
        (t.lawful E).storeAligned _ _ (aligned_reg (t.lawful E) a1)]
      apply Ensures.bind
      refine Ensures.mono ensures_writeVec ?_
      intro _ m2 ⟨h2, ha⟩
      apply Ensures.bind
      refine Ensures.mono ensures_writeVec ?_
      intro _ m3 ⟨h3, _⟩
      exact Ensures.pure ⟨(h1.trans h2).trans h3, h1.allocated ha⟩) hn hm
  exact ⟨e, Exec.bind_error he⟩

/-- The copy functions: the reads alone leave the source buffer. -/
theorem C10_copyvec_small (v : CopyVariant) {dest src i : Nat} (hn : n.toNat < t.perLine)
    (hs : t.AddrOk v.srcAligned src) (hd : t.AddrOk v.dstAligned dest)
    (hi : t.size ≤ i) (hi' : i < 2 ^ 32 * t.perLine) (hnone : m (src + i) = none) :
    ∃ e, copyvecSimd' (t.vec E) v dest src n m = .error e := by
  obtain ⟨k, hpl, hk⟩ := Lawful.line_eq (t.lawful E)
  have h := ensures_cacheline hpl hk
    (run := copyvecRun (t.vec E) v.srcAligned v.dstAligned dest src (t.vec E).perLine)
    (P := fun i => Allocated m (src + (i + 1) * (t.vec E).size) (t.vec E).size) (by
      intro j r m1 h1
      rw [hpl]
      exact ensures_copyRun t E v hs hd j r m1 h1) n ()
  refine faults_of_ensures (Ensures.mono h fun _ _ h => h.2) ?_
  intro hall
  rw [tripCount_div_lt (t.lawful E).line_small (by rw [t.vec_perLine]; exact hn)] at hall
  have hp := t.size_pos
  have hsz := t.vec_size E
  have hpl' : t.perLine = k * t.size := by rw [← t.vec_perLine E, hpl, hsz]
  have hq : i / t.size < 2 ^ 32 * k := by
    rw [Nat.div_lt_iff_lt_mul hp, Nat.mul_assoc, ← hpl']; exact hi'
  have hq1 : 1 ≤ i / t.size := (Nat.one_le_div_iff hp).mpr hi
  have := hall (i / t.size - 1) (by omega) (i % t.size) (by rw [hsz]; exact Nat.mod_lt _ hp)
  rw [hsz, Nat.sub_add_cancel hq1, Nat.add_assoc, Nat.mul_comm, Nat.div_add_mod, hnone] at this
  cases this

end simd

/-! ## Horizontal functions and meters, SIMD -/
section fold
variable (t : Target) (E : Env α) {m : Mem α} {n : BitVec 32} {inp : Nat}

/-- A loop whose body loads the `w` elements at the position and advances by `w`. -/
theorem faults_of_doWhile_width {σ β : Type} {body : σ → Exec α σ} {s : σ} {p w : Nat} (hw : 0 < w)
    {k : σ → Exec α β} {c : BitVec 32} (hc : c = 0#32) (at_ : σ → Nat) (h0 : at_ s = p)
    (hb : ∀ s, w ∣ at_ s - p → p ≤ at_ s → Ensures (body s) m fun s' m2 =>
      at_ s' = at_ s + w ∧ m2 = m ∧ Allocated m (at_ s) w)
    (hm : ¬ Allocated m p (2 ^ 32 * w)) :
    ∃ e, (doWhile body c s >>= k) m = .error e := by
  subst hc
  have h := ensures_iterM (body := body) (Inv := fun q s m' => at_ s = p + q * w ∧ m' = m)
    (Q := fun q => Allocated m (p + q * w) w) (by
      rintro q s m1 ⟨hs, rfl⟩
      refine Ensures.mono (hb s ⟨q, by rw [hs, Nat.add_sub_cancel_left, Nat.mul_comm]⟩ (by omega)) ?_
      rintro s' m2 ⟨e, rfl, a⟩
      refine ⟨⟨by rw [e, hs, Nat.succ_mul]; omega, rfl⟩, by rw [← hs]; exact a⟩) (2 ^ 32) 0 s m
      ⟨by rw [h0]; omega, rfl⟩
  refine faults_of_ensures (P := Allocated m p (2 ^ 32 * w)) ?_ hm
  apply Ensures.first
  rw [doWhile_eq_iterM]
  refine Ensures.mono (show Ensures (iterM body (tripCount 0#32) s) m _ from h) ?_
  intro _ _ h i hi
  have hq : i / w < 2 ^ 32 := by rw [Nat.div_lt_iff_lt_mul hw]; exact hi
  have := h.2 (i / w) (Nat.zero_le _) (by rw [Nat.zero_add]; exact hq) (i % w) (Nat.mod_lt _ hw)
  rw [Nat.add_assoc, Nat.mul_comm, Nat.div_add_mod] at this
  exact this

theorem div_eq_zero_of_lt {n : BitVec 32} {w : Nat} (hw : w < 2 ^ 32) (hn : n.toNat < w) :
    n / BitVec.ofNat 32 w = 0#32 := by
  apply BitVec.eq_of_toNat_eq
  rw [BitVec.toNat_udiv, BitVec.toNat_ofNat, Nat.mod_eq_of_lt hw, Nat.div_eq_of_lt hn]
  rfl

theorem size_small (t : Target) : 4 * t.size < 2 ^ 32 := by
  cases t <;> (show _ < _; simp only [Target.size]; decide)

theorem foldVecSimd_small {σ : Type} (f : σ → (t.vec E).V → σ) (init : σ) (hn : n.toNat < t.size)
    (hal : t.align ∣ inp) (hm : ¬ Allocated m inp (2 ^ 32 * t.size)) :
    ∃ e, foldVecSimd (t.vec E) f init inp n m = .error e := by
  unfold foldVecSimd
  refine faults_of_doWhile_width t.size_pos
    (div_eq_zero_of_lt (by rw [t.vec_size]; have := size_small t; omega) (by rw [t.vec_size]; exact hn))
    (fun d => d.1) rfl ?_ hm
  rintro ⟨d, c⟩ hd hle
  dsimp only at hd hle ⊢
  have hald : t.align ∣ d := by
    have h1 : t.align ∣ d - inp := Nat.dvd_trans (by rw [← t.vec_size E]; exact (t.lawful E).al_dvd) hd
    have : d = d - inp + inp := by omega
    rw [this]; exact Nat.dvd_add h1 hal
  rw [(t.lawful E).loadAligned _ hald]
  apply Ensures.bind
  refine Ensures.mono ensures_readVec ?_
  rintro v _ ⟨rfl, ha⟩
  refine Ensures.pure ⟨by rw [t.vec_size], rfl, by rw [← t.vec_size E]; exact ha⟩

theorem C10_horizontal_small (lim : Limits α) (hn : n.toNat < t.size) (hal : t.align ∣ inp)
    (hm : ¬ Allocated m inp (2 ^ 32 * t.size)) :
    (∃ e, horizontalMaxVecSimd (t.vec E) lim inp n m = .error e) ∧
    (∃ e, horizontalMinVecSimd (t.vec E) lim inp n m = .error e) ∧
    (∃ e, horizontalSumVecSimd E (t.vec E) inp n m = .error e) ∧
    (∃ e, horizontalMinmaxVecSimd (t.vec E) lim inp n m = .error e) ∧
    (∃ e, horizontalMaxsumVecSimd E (t.vec E) lim inp n m = .error e) := by
  have b : ∀ {σ β : Type} (f : σ → (t.vec E).V → σ) (init : σ) (k : σ → Exec α β),
      ∃ e, (foldVecSimd (t.vec E) f init inp n >>= k) m = .error e := by
    intro σ β f init k
    obtain ⟨e, he⟩ := foldVecSimd_small t E f init hn hal hm
    exact ⟨e, Exec.bind_error he⟩
  exact ⟨b _ _ _, b _ _ _, b _ _ _, b _ _ _, b _ _ _⟩

/-- Loads of four consecutive registers. -/
theorem ensures_four_loads {β : Type} {p : Nat} (hp : t.align ∣ p)
    {k : (t.vec E).V → (t.vec E).V → (t.vec E).V → (t.vec E).V → β} :
    Ensures (do
      let a ← (t.vec E).loadAligned p
      let b ← (t.vec E).loadAligned (p + (t.vec E).size)
      let c ← (t.vec E).loadAligned (p + 2 * (t.vec E).size)
      let d ← (t.vec E).loadAligned (p + 3 * (t.vec E).size)
      pure (k a b c d)) m fun _ m' => m' = m ∧ Allocated m p (4 * t.size) := by
  have hs : t.align ∣ (t.vec E).size := (t.lawful E).al_dvd
  rw [(t.lawful E).loadAligned _ hp, (t.lawful E).loadAligned _ (Nat.dvd_add hp hs),
    (t.lawful E).loadAligned _ (Nat.dvd_add hp (Dvd.dvd.mul_left hs 2)),
    (t.lawful E).loadAligned _ (Nat.dvd_add hp (Dvd.dvd.mul_left hs 3))]
  apply Ensures.bind
  refine Ensures.mono ensures_readVec ?_
  rintro a _ ⟨rfl, h0⟩
  apply Ensures.bind
  refine Ensures.mono ensures_readVec ?_
  rintro b _ ⟨rfl, h1⟩
  apply Ensures.bind
  refine Ensures.mono ensures_readVec ?_
  rintro c _ ⟨rfl, h2⟩
  apply Ensures.bind
  refine Ensures.mono ensures_readVec ?_
  rintro d _ ⟨rfl, h3⟩
  refine Ensures.pure ⟨rfl, fun i hi => ?_⟩
  have hz := t.vec_size E
  rw [hz] at h0 h1 h2 h3
  by_cases c0 : i < t.size
  · exact h0 i c0
  by_cases c1 : i < 2 * t.size
  · have := h1 (i - t.size) (by omega)
    rwa [show p + t.size + (i - t.size) = p + i by omega] at this
  by_cases c2 : i < 3 * t.size
  · have := h2 (i - 2 * t.size) (by omega)
    rwa [show p + 2 * t.size + (i - 2 * t.size) = p + i by omega] at this
  · have := h3 (i - 3 * t.size) (by omega)
    rwa [show p + 3 * t.size + (i - 3 * t.size) = p + i by omega] at this

theorem ensures_loadFirst (p : Nat) : Ensures ((t.vec E).loadFirst p) m fun _ m' => m' = m := by
  cases t <;> (
    apply Ensures.bind
    refine Ensures.mono ensures_read ?_
    rintro v _ ⟨rfl, _⟩
    exact Ensures.pure rfl)

include E in
theorem position_aligned {d : Nat} (hal : t.align ∣ inp) (hd : 4 * t.size ∣ d - inp) (hle : inp ≤ d) :
    t.align ∣ d := by
  have h0 : t.align ∣ t.size := by rw [← t.vec_size E]; exact (t.lawful E).al_dvd
  have h1 : t.align ∣ d - inp := Nat.dvd_trans (Dvd.dvd.mul_left h0 4) hd
  have : d = d - inp + inp := by omega
  rw [this]; exact Nat.dvd_add h1 hal

/-- `peak_vec_simd` with fewer than four registers. -/
theorem C10_peak_small {peak : Nat} (hn : n.toNat < 4 * t.size) (hal : t.align ∣ inp)
    (hm : ¬ Allocated m inp (2 ^ 32 * (4 * t.size))) :
    ∃ e, peakVecSimd (t.vec E) inp peak n m = .error e := by
  unfold peakVecSimd
  cases hr : (t.vec E).loadFirst peak m with
  | error e => exact ⟨e, Exec.bind_error hr⟩
  | ok r =>
    obtain ⟨v, m'⟩ := r
    have hmm := ensures_loadFirst t E peak _ _ hr
    subst hmm
    rw [Exec.bind_ok hr]
    refine faults_of_doWhile_width (w := 4 * t.size) (by have := t.size_pos; omega)
      (div_eq_zero_of_lt (by rw [t.vec_size]; exact size_small t) (by rw [t.vec_size]; exact hn))
      (fun d => d.1) rfl ?_ hm
    intro d hd hle
    apply Ensures.bind
    refine Ensures.mono (ensures_four_loads t E (position_aligned t E hal hd hle)) ?_
    rintro _ _ ⟨rfl, ha⟩
    exact Ensures.pure ⟨by rw [t.vec_size], rfl, ha⟩

/-- `peak_rms_vec_simd` with fewer than four registers. -/
theorem C10_peak_rms_small {peak sum : Nat} (hn : n.toNat < 4 * t.size) (hal : t.align ∣ inp)
    (hm : ¬ Allocated m inp (2 ^ 32 * (4 * t.size))) :
    ∃ e, peakRmsVecSimd (t.vec E) inp peak sum n m = .error e := by
  unfold peakRmsVecSimd
  cases hr : (t.vec E).loadFirst peak m with
  | error e => exact ⟨e, Exec.bind_error hr⟩
  | ok r =>
    obtain ⟨v, m'⟩ := r
    have hmm := ensures_loadFirst t E peak _ _ hr
    subst hmm
    rw [Exec.bind_ok hr]
    cases hr2 : (t.vec E).loadFirst sum m' with
    | error e => exact ⟨e, Exec.bind_error hr2⟩
    | ok r =>
      obtain ⟨v2, m''⟩ := r
      have hmm := ensures_loadFirst t E sum _ _ hr2
      subst hmm
      rw [Exec.bind_ok hr2]
      refine faults_of_doWhile_width (w := 4 * t.size) (by have := t.size_pos; omega)
        (div_eq_zero_of_lt (by rw [t.vec_size]; exact size_small t) (by rw [t.vec_size]; exact hn))
        (fun d => d.1) rfl ?_ hm
      intro d hd hle
      apply Ensures.bind
      refine Ensures.mono (ensures_four_loads t E (position_aligned t E hal hd hle)) ?_
      rintro _ _ ⟨rfl, ha⟩
      exact Ensures.pure ⟨by rw [t.vec_size], rfl, ha⟩

end fold

section examples
open Examples

example : ∃ e, horizontalSumVec intEnv 0 0#32 (ramp 1000) = .error e :=
  (C10_horizontal_scalar intEnv ⟨1, 1000⟩ fun h => absurd (h 1000 (by decide)) (by decide)).2.2.1

example : ∃ e, horizontalSumVecSimd intEnv (Target.avxFloat.vec intEnv) 8 7#32 (ramp 1000) = .error e :=
  (C10_horizontal_small .avxFloat intEnv ⟨1, 1000⟩ (by decide) (by decide)
    fun h => absurd (h 1000 (by decide)) (by decide)).2.2.1

example : ∃ e, pan2VecSimd ((Target.sse true true).vec intEnv) 0 40 80 2 3 12#32 (ramp 1000) = .error e :=
  C10_pan2_small (.sse true true) intEnv (by decide) (by decide) (by decide)
    fun h => absurd (h 1000 (by decide)) (by decide)

end examples
end Nova
