import Verif.Props.C10_Faults
import Verif.Props.C15_Memory
import Verif.Props.C21_Pan
import Verif.Props.C23_Meters

/-!
# C11: alignment of the remaining functions
-/

namespace Nova
open Spec
variable {α : Type}

/-! ## Targets without an alignment requirement -/

theorem C11_anyPlacement_binary (t : Target) (ht : t = .genericFloat ∨ t = .genericDouble ∨ t = .neon)
    (E : Env α) (op : BinOp) {m : Mem α} {out p q : Nat} {n : BitVec 32} {x y : Nat → α}
    (hn : 0 < n.toNat) (hmul : t.perLine ∣ n.toNat) (hout : Allocated m out n.toNat)
    (hx : Holds m p n.toNat x) (hxs : SafePlacement out p n.toNat)
    (hy : Holds m q n.toNat y) (hys : SafePlacement out q n.toNat) :
    op.vecSimd (t.vec E) out (.ptr p) (.ptr q) n m
      = .ok ((), overwrite m out n.toNat fun i => op.f E.L (x i) (y i)) := by
  have hal : ∀ a, t.align ∣ a := by rcases ht with rfl | rfl | rfl <;> exact fun a => Nat.one_dvd a
  exact C02_binary_simd t E op hn hmul (hal _) hout ⟨hal _, hx, hxs⟩ ⟨hal _, hy, hys⟩

theorem C11_anyPlacement_ternary (t : Target) (ht : t = .genericFloat ∨ t = .genericDouble ∨ t = .neon)
    (E : Env α) (op : TerOp) {m : Mem α} {out p q r : Nat} {n : BitVec 32} {x y z : Nat → α}
    (hn : 0 < n.toNat) (hmul : t.perLine ∣ n.toNat) (hout : Allocated m out n.toNat)
    (hx : Holds m p n.toNat x) (hxs : SafePlacement out p n.toNat)
    (hy : Holds m q n.toNat y) (hys : SafePlacement out q n.toNat)
    (hz : Holds m r n.toNat z) (hzs : SafePlacement out r n.toNat) :
    op.vecSimd (t.vec E) out (.ptr p) (.ptr q) (.ptr r) n m
      = .ok ((), overwrite m out n.toNat fun i => op.f E.L (x i) (y i) (z i)) := by
  have hal : ∀ a, t.align ∣ a := by rcases ht with rfl | rfl | rfl <;> exact fun a => Nat.one_dvd a
  exact C03_ternary_simd t E op hn hmul (hal _) hout ⟨hal _, hx, hxs⟩ ⟨hal _, hy, hys⟩ ⟨hal _, hz, hzs⟩

theorem C11_anyPlacement_quad (t : Target) (ht : t = .genericFloat ∨ t = .genericDouble ∨ t = .neon)
    (E : Env α) (op : QuadOp) {m : Mem α} {out p q r s : Nat} {n : BitVec 32} {x y z u : Nat → α}
    (hn : 0 < n.toNat) (hmul : t.perLine ∣ n.toNat) (hout : Allocated m out n.toNat)
    (hx : Holds m p n.toNat x) (hxs : SafePlacement out p n.toNat)
    (hy : Holds m q n.toNat y) (hys : SafePlacement out q n.toNat)
    (hz : Holds m r n.toNat z) (hzs : SafePlacement out r n.toNat)
    (hu : Holds m s n.toNat u) (hus : SafePlacement out s n.toNat) :
    op.vecSimd (t.vec E) out (.ptr p) (.ptr q) (.ptr r) (.ptr s) n m
      = .ok ((), overwrite m out n.toNat fun i => op.f E.L (x i) (y i) (z i) (u i)) := by
  have hal : ∀ a, t.align ∣ a := by rcases ht with rfl | rfl | rfl <;> exact fun a => Nat.one_dvd a
  exact C04_quad_simd t E op hn hmul (hal _) hout ⟨hal _, hx, hxs⟩ ⟨hal _, hy, hys⟩ ⟨hal _, hz, hzs⟩
    ⟨hal _, hu, hus⟩

/-! ## Targets whose aligned accesses fault -/

theorem Ensures.top {β : Type} {x : Exec α β} {m : Mem α} : Ensures x m fun _ _ => True :=
  fun _ _ _ => trivial

theorem Ensures.skip {β γ : Type} {x : Exec α β} {f : β → Exec α γ} {m : Mem α} {P : Prop}
    (h : ∀ b m', Ensures (f b) m' fun _ _ => P) : Ensures (x >>= f) m fun _ _ => P :=
  Ensures.bind fun b m' _ => h b m'

theorem Ensures.first {β γ : Type} {x : Exec α β} {f : β → Exec α γ} {m : Mem α} {P : Prop}
    (h : Ensures x m fun _ _ => P) : Ensures (x >>= f) m fun _ _ => P :=
  Ensures.bind fun b m' hx _ _ _ => h b m' hx

section faults
variable (t : Target) (ht : t.faultsOnMisaligned) (E : Env α)
include ht

theorem ensures_loadAligned_al (p : Nat) (m : Mem α) :
    Ensures ((t.vec E).loadAligned p) m fun _ _ => t.align ∣ p := by
  intro b m' h
  apply Decidable.byContradiction
  intro hn
  rw [loadAligned_misaligned t ht E hn] at h
  cases h

theorem ensures_storeAligned_al (v : (t.vec E).V) (p : Nat) (m : Mem α) :
    Ensures ((t.vec E).storeAligned v p) m fun _ _ => t.align ∣ p := by
  intro b m' h
  apply Decidable.byContradiction
  intro hn
  rw [storeAligned_misaligned t ht E hn] at h
  cases h

omit ht in
/-- The first execution of the body of a cacheline loop, at offset 0. -/
theorem ensures_cacheline_first {ρ : Type} {body : Nat → ρ → Exec α ρ} {P : Prop}
    (hb : ∀ r m, Ensures (body 0 r) m fun _ _ => P) (n : BitVec 32) (r : ρ) (m : Mem α) :
    Ensures (cachelineLoop (t.vec E) (unrollTmpl (t.vec E) body (t.vec E).perLine) n r) m
      fun _ _ => P := by
  unfold cachelineLoop
  apply Ensures.first
  rw [doWhile]
  apply Ensures.first
  apply Ensures.first
  rw [unrollTmpl, if_neg (by rw [t.vec_perLine]; exact Nat.pos_iff_ne_zero.mp t.perLine_pos)]
  split
  · exact Ensures.fail
  · exact Ensures.first (hb r m)

variable {n : BitVec 32} (m : Mem α)

/-- `setvec_simd` (and `zerovec_simd`, below) -/
theorem C11_setvec {dest : Nat} {f : α} (h : ¬ t.align ∣ dest) :
    ∃ e, setvecSimd (t.vec E) true dest f n m = .error e :=
  faults_of_ensures (ensures_cacheline_first t E
    (fun _ m => by exact ensures_storeAligned_al t ht E _ dest m) n () m) h

theorem C11_zerovec {dest : Nat} (h : ¬ t.align ∣ dest) :
    ∃ e, zerovecSimd (t.vec E) true dest n m = .error e :=
  faults_of_ensures (ensures_cacheline_first t E
    (fun _ m => by exact ensures_storeAligned_al t ht E _ dest m) n () m) h

theorem C11_set_slope {dest : Nat} {f slope : α} (h : ¬ t.align ∣ dest) :
    ∃ e, setSlopeVecSimd E (t.vec E) dest f slope n m = .error e :=
  faults_of_ensures (Ensures.first (ensures_cacheline_first t E
    (fun _ m => Ensures.first (ensures_storeAligned_al t ht E _ dest m)) n _ m)) h

theorem C11_set_exp {dest : Nat} {f curve : α} (h : ¬ t.align ∣ dest) :
    ∃ e, setExpVecSimd E (t.vec E) dest f curve n m = .error e :=
  faults_of_ensures (Ensures.first (ensures_cacheline_first t E
    (fun _ m => Ensures.first (ensures_storeAligned_al t ht E _ dest m)) n _ m)) h

theorem C11_addvec {out inp : Nat} (h : ¬ (t.align ∣ out ∧ t.align ∣ inp)) :
    ∃ e, addvecSimd (t.vec E) out inp n m = .error e := by
  refine faults_of_ensures (ensures_cacheline_first t E (fun _ m => ?_) n () m) h
  unfold addvecBody
  apply Ensures.bind
  refine Ensures.mono (ensures_loadAligned_al t ht E out m) ?_
  intro _ m1 h1
  apply Ensures.bind
  refine Ensures.mono (ensures_loadAligned_al t ht E inp m1) ?_
  intro _ m2 h2
  exact Ensures.mono Ensures.top fun _ _ _ => ⟨h1, h2⟩

theorem C11_addvec_const {out : Nat} {c : α} (h : ¬ t.align ∣ out) :
    ∃ e, addvecConstSimd (t.vec E) out c n m = .error e :=
  faults_of_ensures (ensures_cacheline_first t E
    (fun _ m => Ensures.first (ensures_loadAligned_al t ht E out m)) n () m) h

theorem C11_pan2 {out0 out1 inp : Nat} {f0 f1 : α}
    (h : ¬ (t.align ∣ out0 ∧ t.align ∣ out1 ∧ t.align ∣ inp)) :
    ∃ e, pan2VecSimd (t.vec E) out0 out1 inp f0 f1 n m = .error e := by
  refine faults_of_ensures (ensures_cacheline_first t E (fun _ m => ?_) n () m) h
  unfold pan2Body
  apply Ensures.bind
  refine Ensures.mono (ensures_loadAligned_al t ht E inp m) ?_
  intro _ m1 h1
  apply Ensures.bind
  refine Ensures.mono (ensures_storeAligned_al t ht E _ out0 m1) ?_
  intro _ m2 h2
  refine Ensures.mono (ensures_storeAligned_al t ht E _ out1 m2) ?_
  intro _ _ h3
  exact ⟨h2, h3, h1⟩

theorem C11_pan2_ramp {out0 out1 inp : Nat} {f0 s0 f1 s1 : α}
    (h : ¬ (t.align ∣ out0 ∧ t.align ∣ out1 ∧ t.align ∣ inp)) :
    ∃ e, pan2VecRampSimd (t.vec E) out0 out1 inp f0 s0 f1 s1 n m = .error e := by
  refine faults_of_ensures (Ensures.first (ensures_cacheline_first t E (fun _ m => ?_) n _ m)) h
  unfold pan2RampBody
  apply Ensures.bind
  refine Ensures.mono (ensures_loadAligned_al t ht E inp m) ?_
  intro _ m1 h1
  apply Ensures.bind
  refine Ensures.mono (ensures_storeAligned_al t ht E _ out0 m1) ?_
  intro _ m2 h2
  apply Ensures.bind
  refine Ensures.mono (ensures_storeAligned_al t ht E _ out1 m2) ?_
  intro _ _ h3
  exact Ensures.pure ⟨h2, h3, h1⟩

/-- The four copy functions require alignment of exactly the pointers named aligned in the table
simd_memory.hpp:337-340. -/
theorem C11_copyvec (v : CopyVariant) {dest src : Nat}
    (h : (v.srcAligned = true ∧ ¬ t.align ∣ src) ∨ (v.dstAligned = true ∧ ¬ t.align ∣ dest)) :
    ∃ e, copyvecSimd' (t.vec E) v dest src n m = .error e := by
  have hp : (t.vec E).perLine ≠ 0 := by
    rw [t.vec_perLine]; exact Nat.pos_iff_ne_zero.mp t.perLine_pos
  refine faults_of_ensures (P := ¬ ((v.srcAligned = true ∧ ¬ t.align ∣ src) ∨
    (v.dstAligned = true ∧ ¬ t.align ∣ dest))) ?_ (fun h' => h' h)
  unfold copyvecSimd' cachelineLoop
  apply Ensures.first
  rw [doWhile]
  apply Ensures.first
  apply Ensures.first
  unfold copyvecRun
  rw [if_neg hp]
  apply Ensures.bind
  have hl : Ensures (loadAlignedIf (t.vec E) v.srcAligned (src + 0)) m fun _ _ =>
      v.srcAligned = true → t.align ∣ src := by
    unfold loadAlignedIf
    split
    · exact Ensures.mono (ensures_loadAligned_al t ht E src m) fun _ _ h _ => h
    · rename_i hv
      exact Ensures.mono Ensures.top fun _ _ _ h => absurd h hv
  refine Ensures.mono hl ?_
  intro val m1 h1
  apply Ensures.first
  rw [unrollTmpl, if_neg hp]
  split
  · exact Ensures.fail
  · apply Ensures.first
    unfold copyvecBody
    apply Ensures.skip
    intro val2 m2
    apply Ensures.bind
    have hs : Ensures (storeAlignedIf (t.vec E) v.dstAligned val (dest + 0)) m2 fun _ _ =>
        v.dstAligned = true → t.align ∣ dest := by
      unfold storeAlignedIf
      split
      · exact Ensures.mono (ensures_storeAligned_al t ht E val dest m2) fun _ _ h _ => h
      · rename_i hv
        exact Ensures.mono Ensures.top fun _ _ _ h => absurd h hv
    refine Ensures.mono hs ?_
    intro _ m3 h3
    apply Ensures.pure
    rintro (⟨a, b⟩ | ⟨a, b⟩)
    · exact b (h1 a)
    · exact b (h3 a)

/-- `copyvec_aa` needs both pointers aligned, `copyvec_na` the destination, `copyvec_an` the source. -/
theorem C11_copyvec_names {dest src : Nat} :
    (¬ (t.align ∣ dest ∧ t.align ∣ src) → ∃ e, copyvecSimd' (t.vec E) .aa dest src n m = .error e) ∧
    (¬ t.align ∣ dest → ∃ e, copyvecSimd' (t.vec E) .na dest src n m = .error e) ∧
    (¬ t.align ∣ src → ∃ e, copyvecSimd' (t.vec E) .an dest src n m = .error e) ∧
    (¬ (t.align ∣ dest ∧ t.align ∣ src) → ∃ e, copyvecSimd (t.vec E) dest src n m = .error e) := by
  have aa : ¬ (t.align ∣ dest ∧ t.align ∣ src) →
      ∃ e, copyvecSimd' (t.vec E) .aa dest src n m = .error e := by
    intro h
    apply C11_copyvec t ht E m
    by_cases hd : t.align ∣ dest
    · exact Or.inl ⟨rfl, fun hs => h ⟨hd, hs⟩⟩
    · exact Or.inr ⟨rfl, hd⟩
  exact ⟨aa, fun h => C11_copyvec t ht E m _ (Or.inr ⟨rfl, h⟩),
    fun h => C11_copyvec t ht E m _ (Or.inl ⟨rfl, h⟩), aa⟩

/-- Every horizontal function: the loop they share loads its buffer with aligned accesses. -/
theorem ensures_foldVecSimd_al {σ : Type} (f : σ → (t.vec E).V → σ) (init : σ) (inp : Nat)
    (n : BitVec 32) (m : Mem α) :
    Ensures (foldVecSimd (t.vec E) f init inp n) m fun _ _ => t.align ∣ inp := by
  unfold foldVecSimd
  apply Ensures.first
  rw [doWhile]
  apply Ensures.first
  exact Ensures.first (ensures_loadAligned_al t ht E inp m)

theorem C11_horizontal (lim : Limits α) {inp : Nat} (h : ¬ t.align ∣ inp) :
    (∃ e, horizontalMaxVecSimd (t.vec E) lim inp n m = .error e) ∧
    (∃ e, horizontalMinVecSimd (t.vec E) lim inp n m = .error e) ∧
    (∃ e, horizontalSumVecSimd E (t.vec E) inp n m = .error e) ∧
    (∃ e, horizontalMinmaxVecSimd (t.vec E) lim inp n m = .error e) ∧
    (∃ e, horizontalMaxsumVecSimd E (t.vec E) lim inp n m = .error e) :=
  ⟨faults_of_ensures (Ensures.first (ensures_foldVecSimd_al t ht E _ _ inp n m)) h,
    faults_of_ensures (Ensures.first (ensures_foldVecSimd_al t ht E _ _ inp n m)) h,
    faults_of_ensures (Ensures.first (ensures_foldVecSimd_al t ht E _ _ inp n m)) h,
    faults_of_ensures (Ensures.first (ensures_foldVecSimd_al t ht E _ _ inp n m)) h,
    faults_of_ensures (Ensures.first (ensures_foldVecSimd_al t ht E _ _ inp n m)) h⟩

/-- The peak meters: the input must be aligned, the accumulators need not be. -/
theorem C11_peak {inp peak : Nat} (h : ¬ t.align ∣ inp) :
    ∃ e, peakVecSimd (t.vec E) inp peak n m = .error e := by
  refine faults_of_ensures ?_ h
  unfold peakVecSimd
  apply Ensures.skip
  intro v m1
  apply Ensures.first
  rw [doWhile]
  apply Ensures.first
  apply Ensures.first
  exact Ensures.first (ensures_loadAligned_al t ht E inp m1)

theorem C11_peak_rms {inp peak sum : Nat} (h : ¬ t.align ∣ inp) :
    ∃ e, peakRmsVecSimd (t.vec E) inp peak sum n m = .error e := by
  refine faults_of_ensures ?_ h
  unfold peakRmsVecSimd
  apply Ensures.skip
  intro v m1
  apply Ensures.skip
  intro v2 m2
  apply Ensures.first
  rw [doWhile]
  apply Ensures.first
  apply Ensures.first
  exact Ensures.first (ensures_loadAligned_al t ht E inp m2)

end faults

section examples
open Examples

/-- NEON: three odd addresses. -/
example : BinOp.plus.vecSimd (Target.neon.vec intEnv) 41 (.ptr 1) (.ptr 19) 16#32 (ramp 60)
    = .ok ((), overwrite (ramp 60) 41 16 fun i => (10 * ((1 + i : Nat) : Int) - 100) + (10 * ((19 + i : Nat) : Int) - 100)) :=
  C11_anyPlacement_binary .neon (Or.inr (Or.inr rfl)) intEnv .plus (by decide) (by decide)
    (by unfold Allocated; decide) (by unfold Holds; decide) (by unfold SafePlacement; decide)
    (by unfold Holds; decide) (by unfold SafePlacement; decide)

/-- SSE: `copyvec_na` with a destination at address 1. -/
example : ∃ e, copyvecSimd' ((Target.sse true true).vec intEnv) .na 1 40 16#32 (ramp 100) = .error e :=
  (C11_copyvec_names (.sse true true) rfl intEnv (ramp 100)).2.1 (by decide)

example : ∃ e, peakVecSimd (Target.avxDouble.vec intEnv) 2 40 16#32 (ramp 100) = .error e :=
  C11_peak .avxDouble rfl intEnv (ramp 100) (by decide)

end examples
end Nova
