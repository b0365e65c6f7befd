import Verif.Lemmas.Faults
import Verif.Props.C01_Elementwise

/-!
# C08, C10, C11: forward overlap, sizes below the granule, misaligned pointers
-/

namespace Nova
open Spec
variable {α : Type}

/-! ## C10

The counter is decremented before it is tested, so `n = 0` runs `2^32` iterations.  Unless the
memory behind `out` has room for all of them, the call faults. -/

theorem C10_unary_scalar (A : Arith α) (op : UnOp) {m : Mem α} {out inp : Nat}
    (hm : ¬ Allocated m out (2 ^ 32)) : ∃ e, op.vec A out inp 0#32 m = .error e :=
  faults_of_ensures (ensures_performVec1 (n := 0#32)) hm

theorem C10_binary_scalar (A : Arith α) (op : BinOp) {m : Mem α} {out : Nat} {a b : SArg α}
    (hm : ¬ Allocated m out (2 ^ 32)) : ∃ e, op.vec A out a b 0#32 m = .error e :=
  faults_of_ensures (ensures_performVec2 (n := 0#32)) hm

theorem C10_ternary_scalar (A : Arith α) (op : TerOp) {m : Mem α} {out : Nat} {a b c : SArg α}
    (hm : ¬ Allocated m out (2 ^ 32)) : ∃ e, op.vec A out a b c 0#32 m = .error e :=
  faults_of_ensures (ensures_performVec3 (n := 0#32)) hm

theorem C10_quad_scalar (A : Arith α) (op : QuadOp) {m : Mem α} {out : Nat} {a b c d : SArg α}
    (hm : ¬ Allocated m out (2 ^ 32)) : ∃ e, op.vec A out a b c d 0#32 m = .error e :=
  faults_of_ensures (ensures_performVec4 (n := 0#32)) hm

theorem short_trip (t : Target) (E : Env α) {n : BitVec 32} (hn : n.toNat < t.perLine) :
    tripCount (n / BitVec.ofNat 32 (t.vec E).perLine) * (t.vec E).perLine
      = 2 ^ 32 * t.perLine := by
  rw [t.vec_perLine, tripCount_div_lt t.perLine_small hn]

/-- A SIMD call with fewer elements than the granule. -/
theorem C10_unary_simd (t : Target) (E : Env α) (op : UnOp) {m : Mem α} {out inp : Nat}
    {n : BitVec 32} (hn : n.toNat < t.perLine) (hal : t.align ∣ out)
    (hm : ¬ Allocated m out (2 ^ 32 * t.perLine)) :
    ∃ e, op.vecSimd (t.vec E) out inp n m = .error e := by
  unfold UnOp.vecSimd performVecSimd1
  rw [simdLoop1_eq]
  apply faults_of_ensures (ensures_simdLoopG (t.lawful E) (ensures_consume (t.domLaws E)) hal)
  rw [short_trip t E hn]; exact hm

theorem C10_binary_simd (t : Target) (E : Env α) (op : BinOp) {m : Mem α} {out : Nat}
    {a b : SArg α} {n : BitVec 32} (hn : n.toNat < t.perLine) (hal : t.align ∣ out)
    (hm : ¬ Allocated m out (2 ^ 32 * t.perLine)) :
    ∃ e, op.vecSimd (t.vec E) out a b n m = .error e := by
  unfold BinOp.vecSimd performVecSimd2
  rw [simdLoop2_eq]
  apply faults_of_ensures (ensures_simdLoopG (t.lawful E) (ensures_consume2 (t.domLaws E)) hal)
  rw [short_trip t E hn]; exact hm

theorem C10_ternary_simd (t : Target) (E : Env α) (op : TerOp) {m : Mem α} {out : Nat}
    {a b c : SArg α} {n : BitVec 32} (hn : n.toNat < t.perLine) (hal : t.align ∣ out)
    (hm : ¬ Allocated m out (2 ^ 32 * t.perLine)) :
    ∃ e, op.vecSimd (t.vec E) out a b c n m = .error e := by
  unfold TerOp.vecSimd performVecSimd3
  rw [simdLoop3_eq]
  apply faults_of_ensures (ensures_simdLoopG (t.lawful E) (ensures_consume3 (t.domLaws E)) hal)
  rw [short_trip t E hn]; exact hm

theorem C10_quad_simd (t : Target) (E : Env α) (op : QuadOp) {m : Mem α} {out : Nat}
    {a b c d : SArg α} {n : BitVec 32} (hn : n.toNat < t.perLine) (hal : t.align ∣ out)
    (hm : ¬ Allocated m out (2 ^ 32 * t.perLine)) :
    ∃ e, op.vecSimd (t.vec E) out a b c d n m = .error e := by
  unfold QuadOp.vecSimd performVecSimd4
  rw [simdLoop4_eq]
  apply faults_of_ensures (ensures_simdLoopG (t.lawful E) (ensures_consume4 (t.domLaws E)) hal)
  rw [short_trip t E hn]; exact hm

/-! ## C11 -/

/-- The targets whose aligned accesses raise a fault: SSE, SSE2, AVX. -/
def Target.faultsOnMisaligned : Target → Bool
  | .sse _ _ => true
  | .sse2 => true
  | .avxFloat => true
  | .avxDouble => true
  | _ => false

theorem loadAligned_misaligned (t : Target) (ht : t.faultsOnMisaligned) (E : Env α) {p : Nat}
    (hp : ¬ t.align ∣ p) (m : Mem α) : (t.vec E).loadAligned p m = .error (.misaligned p) := by
  have aux : ∀ w (x : Exec α (Vec α w)), ¬ w ∣ p → alignedAt w p x m = .error (.misaligned p) := by
    intro w x h
    unfold alignedAt
    rw [if_neg (fun h' => h (Nat.dvd_of_mod_eq_zero h'))]
    rfl
  cases t <;> first | (exact aux _ _ hp) | (simp [Target.faultsOnMisaligned] at ht)

theorem storeAligned_misaligned (t : Target) (ht : t.faultsOnMisaligned) (E : Env α) {p : Nat}
    (hp : ¬ t.align ∣ p) (v : (t.vec E).V) (m : Mem α) :
    (t.vec E).storeAligned v p m = .error (.misaligned p) := by
  have aux : ∀ w (x : Exec α Unit), ¬ w ∣ p → alignedAt w p x m = .error (.misaligned p) := by
    intro w x h
    unfold alignedAt
    rw [if_neg (fun h' => h (Nat.dvd_of_mod_eq_zero h'))]
    rfl
  cases t <;> first | (exact aux _ _ hp) | (simp [Target.faultsOnMisaligned] at ht)

/-- An input pointer that is not aligned: the first access faults, whatever the memory and size. -/
theorem C11_unary_input (t : Target) (ht : t.faultsOnMisaligned) (E : Env α) (op : UnOp)
    {out inp : Nat} {n : BitVec 32} (hp : ¬ t.align ∣ inp) (m : Mem α) :
    op.vecSimd (t.vec E) out inp n m = .error (.misaligned inp) := by
  unfold UnOp.vecSimd performVecSimd1
  rw [simdLoop1_eq]
  unfold simdLoopG
  simp only
  apply Exec.bind_error
  rw [doWhile]
  apply Exec.bind_error
  apply Exec.bind_error
  unfold runG
  rw [if_neg (by rw [t.vec_perLine]; exact Nat.pos_iff_ne_zero.mp t.perLine_pos)]
  apply Exec.bind_error
  apply Exec.bind_error
  exact loadAligned_misaligned t ht E hp m

theorem aligned_of_success (t : Target) (ht : t.faultsOnMisaligned) (E : Env α) {σ β : Type}
    {consume : σ → Exec α (β × σ)} {f : β → Except Fault (t.vec E).V} {out : Nat} {s : σ}
    {n : BitVec 32} {m : Mem α} {P : Prop} (hc : Ensures (consume s) m fun _ _ => P) :
    Ensures (simdLoopG (t.vec E) consume f out s n) m fun _ _ => P ∧ t.align ∣ out := by
  unfold simdLoopG
  apply Ensures.bind
  rw [doWhile]
  apply Ensures.bind
  apply Ensures.bind
  unfold runG
  rw [if_neg (by rw [t.vec_perLine]; exact Nat.pos_iff_ne_zero.mp t.perLine_pos)]
  apply Ensures.bind
  refine Ensures.mono hc ?_
  rintro ⟨v, s1⟩ m1 hP
  simp only
  rw [mpIterG, if_neg (by rw [t.vec_perLine]; exact Nat.pos_iff_ne_zero.mp t.perLine_pos)]
  split
  · exact Ensures.fail
  · have top : ∀ {γ : Type} {x : Exec α γ} {m : Mem α}, Ensures x m fun _ _ => True :=
      fun _ _ _ => trivial
    apply Ensures.bind
    refine Ensures.mono top ?_
    intro nxt m2 _
    apply Ensures.bind
    refine Ensures.mono top ?_
    intro x m3 _
    apply Ensures.bind
    refine Ensures.mono top ?_
    intro r m4 _
    apply Ensures.bind
    have hst : Ensures ((t.vec E).storeAligned r out) m4 fun _ _ => t.align ∣ out := by
      intro b m' h
      apply Decidable.byContradiction
      intro hn
      rw [storeAligned_misaligned t ht E hn] at h
      cases h
    refine Ensures.mono hst ?_
    intro _ m5 hal
    refine Ensures.mono top ?_
    intro _ m6 _
    apply Ensures.pure
    refine Ensures.mono top ?_
    intro _ _ _
    exact Ensures.pure ⟨hP, hal⟩

/-- An argument is aligned if it is not a pointer, or an aligned pointer. -/
def AlignedArg (al : Nat) : SArg α → Prop
  | .ptr p => al ∣ p
  | _ => True

theorem ensures_consume_aligned (t : Target) (ht : t.faultsOnMisaligned) (E : Env α) (a : SArg α)
    (m : Mem α) : Ensures ((wrapVectorArg (t.vec E) a).consume (t.vec E)) m
      fun _ m' => m' = m ∧ AlignedArg t.align a := by
  intro b m' h
  refine ⟨ensures_consume (t.domLaws E) _ m b m' h, ?_⟩
  cases a with
  | ptr p =>
    show t.align ∣ p
    apply Decidable.byContradiction
    intro hn
    have : (wrapVectorArg (t.vec E) (.ptr p)).consume (t.vec E) m = .error (.misaligned p) :=
      Exec.bind_error (loadAligned_misaligned t ht E hn m)
    rw [this] at h
    cases h
  | scalar c => trivial
  | ramp b s => trivial

/-- A successful call had aligned pointers; with a misaligned one it faults. -/
theorem C11_unary (t : Target) (ht : t.faultsOnMisaligned) (E : Env α) (op : UnOp)
    {out inp : Nat} {n : BitVec 32} (h : ¬ (t.align ∣ out ∧ t.align ∣ inp)) (m : Mem α) :
    ∃ e, op.vecSimd (t.vec E) out inp n m = .error e := by
  unfold UnOp.vecSimd performVecSimd1
  rw [simdLoop1_eq]
  apply faults_of_ensures (aligned_of_success t ht E (P := t.align ∣ inp)
    (Ensures.mono (ensures_consume_aligned t ht E (.ptr inp) m) fun _ _ h => h.2))
  exact fun h' => h ⟨h'.2, h'.1⟩

theorem C11_binary (t : Target) (ht : t.faultsOnMisaligned) (E : Env α) (op : BinOp)
    {out : Nat} {a b : SArg α} {n : BitVec 32}
    (h : ¬ (t.align ∣ out ∧ AlignedArg t.align a ∧ AlignedArg t.align b)) (m : Mem α) :
    ∃ e, op.vecSimd (t.vec E) out a b n m = .error e := by
  unfold BinOp.vecSimd performVecSimd2
  rw [simdLoop2_eq]
  apply faults_of_ensures (aligned_of_success t ht E (P := AlignedArg t.align a ∧ AlignedArg t.align b) (by
    apply Ensures.bind
    refine Ensures.mono (ensures_consume_aligned t ht E a _) ?_
    rintro _ _ ⟨rfl, h0⟩
    apply Ensures.bind
    refine Ensures.mono (ensures_consume_aligned t ht E b _) ?_
    rintro _ _ ⟨rfl, h1⟩
    exact Ensures.pure ⟨h0, h1⟩))
  rintro ⟨⟨p0, p1⟩, ho⟩
  exact h ⟨ho, p0, p1⟩

theorem C11_ternary (t : Target) (ht : t.faultsOnMisaligned) (E : Env α) (op : TerOp)
    {out : Nat} {a b c : SArg α} {n : BitVec 32}
    (h : ¬ (t.align ∣ out ∧ AlignedArg t.align a ∧ AlignedArg t.align b ∧ AlignedArg t.align c)) (m : Mem α) :
    ∃ e, op.vecSimd (t.vec E) out a b c n m = .error e := by
  unfold TerOp.vecSimd performVecSimd3
  rw [simdLoop3_eq]
  apply faults_of_ensures (aligned_of_success t ht E (P := AlignedArg t.align a ∧ AlignedArg t.align b ∧ AlignedArg t.align c) (by
    apply Ensures.bind
    refine Ensures.mono (ensures_consume_aligned t ht E a _) ?_
    rintro _ _ ⟨rfl, h0⟩
    apply Ensures.bind
    refine Ensures.mono (ensures_consume_aligned t ht E b _) ?_
    rintro _ _ ⟨rfl, h1⟩
    apply Ensures.bind
    refine Ensures.mono (ensures_consume_aligned t ht E c _) ?_
    rintro _ _ ⟨rfl, h2⟩
    exact Ensures.pure ⟨h0, h1, h2⟩))
  rintro ⟨⟨p0, p1, p2⟩, ho⟩
  exact h ⟨ho, p0, p1, p2⟩

theorem C11_quad (t : Target) (ht : t.faultsOnMisaligned) (E : Env α) (op : QuadOp)
    {out : Nat} {a b c d : SArg α} {n : BitVec 32}
    (h : ¬ (t.align ∣ out ∧ AlignedArg t.align a ∧ AlignedArg t.align b ∧ AlignedArg t.align c ∧ AlignedArg t.align d)) (m : Mem α) :
    ∃ e, op.vecSimd (t.vec E) out a b c d n m = .error e := by
  unfold QuadOp.vecSimd performVecSimd4
  rw [simdLoop4_eq]
  apply faults_of_ensures (aligned_of_success t ht E (P := AlignedArg t.align a ∧ AlignedArg t.align b ∧ AlignedArg t.align c ∧ AlignedArg t.align d) (by
    apply Ensures.bind
    refine Ensures.mono (ensures_consume_aligned t ht E a _) ?_
    rintro _ _ ⟨rfl, h0⟩
    apply Ensures.bind
    refine Ensures.mono (ensures_consume_aligned t ht E b _) ?_
    rintro _ _ ⟨rfl, h1⟩
    apply Ensures.bind
    refine Ensures.mono (ensures_consume_aligned t ht E c _) ?_
    rintro _ _ ⟨rfl, h2⟩
    apply Ensures.bind
    refine Ensures.mono (ensures_consume_aligned t ht E d _) ?_
    rintro _ _ ⟨rfl, h3⟩
    exact Ensures.pure ⟨h0, h1, h2, h3⟩))
  rintro ⟨⟨p0, p1, p2, p3⟩, ho⟩
  exact h ⟨ho, p0, p1, p2, p3⟩

/-- The targets without an alignment requirement accept every placement. -/
theorem C11_anyPlacement (t : Target) (ht : t = .genericFloat ∨ t = .genericDouble ∨ t = .neon)
    (E : Env α) (op : UnOp) {m : Mem α} {out inp : Nat} {n : BitVec 32} {x y : Nat → α}
    (hn : 0 < n.toNat) (hmul : t.perLine ∣ n.toNat) (hout : Allocated m out n.toNat)
    (hin : Holds m inp n.toNat x) (hs : SafePlacement out inp n.toNat)
    (hf : ∀ i, i < n.toNat → op.f E.L (x i) = .ok (y i)) :
    op.vecSimd (t.vec E) out inp n m = .ok ((), overwrite m out n.toNat y) := by
  have hal : t.align = 1 := by rcases ht with rfl | rfl | rfl <;> rfl
  exact C01_unary_simd t E op hn hmul (by rw [hal]; exact Nat.one_dvd _)
    (by rw [hal]; exact Nat.one_dvd _) hout hin hs hf

/-- Altivec ignores the low address bits: a misaligned access silently uses other cells. -/
theorem C11_altivec (E : Env α) (p : Nat) (v : Vec α 4) :
    (Target.altivec.vec E).loadAligned p = readVec 4 (p / 4 * 4) ∧
    (Target.altivec.vec E).storeAligned v p = writeVec v (p / 4 * 4) := ⟨rfl, rfl⟩

/-! ## The hypotheses are satisfiable -/
section examples
open Examples

/-- `plus_vec(out, a, b, 0)` on a memory of 1000 cells faults. -/
example : ∃ e, BinOp.plus.vec intArith 0 (.ptr 10) (.ptr 20) 0#32 (ramp 1000) = .error e :=
  C10_binary_scalar intArith .plus fun h => absurd (h 1000 (by decide)) (by decide)

/-- `abs_vec_simd(out, in, 15)` with SSE on a memory of 1000 cells faults. -/
example : ∃ e, UnOp.abs.vecSimd ((Target.sse true true).vec intEnv) 0 16 15#32 (ramp 1000)
    = .error e :=
  C10_unary_simd (.sse true true) intEnv .abs (by decide) (by decide)
    fun h => absurd (h 1000 (by decide)) (by decide)

example : UnOp.abs.vecSimd ((Target.sse true true).vec intEnv) 0 17 16#32 (ramp 1000)
    = .error (.misaligned 17) :=
  C11_unary_input (.sse true true) rfl intEnv .abs (by decide) _

example : ∃ e, BinOp.plus.vecSimd (Target.avxFloat.vec intEnv) 0 (.ptr 4) (.scalar 1) 16#32
    (ramp 1000) = .error e :=
  C11_binary .avxFloat rfl intEnv .plus (fun h => absurd h.2.1 (by simp [AlignedArg, Target.align])) _

end examples

/-! ## C08

Three semantics of `square(out, in, 16)` with the output four cells behind the input.  The scalar
loop feeds results back; the SIMD loop (SSE) loads each register before the store that would
overwrite it.  Both differ from each other; and with 32 elements the SIMD call also differs from
the snapshot semantics. -/
section overlap
open Examples

/-- Cell `a` holds `2` below 40. -/
def twos : Mem Int := fun a => if a < 40 then some 2 else none

/-- The final value of a cell. -/
def cell (r : Except Fault (Unit × Mem Int)) (a : Nat) : Option Int :=
  match r with
  | .ok (_, m) => m a
  | .error _ => none

/-- Cell 12 is element 8 of the output: snapshot semantics gives `2*2 = 4`. -/
theorem C08_simd_vs_scalar :
    cell (UnOp.square.vecSimd ((Target.sse true true).vec intEnv) 4 0 16#32 twos) 12 = some 4 ∧
    cell (UnOp.square.vec intArith 4 0 16#32 twos) 12 = some 256 := by
  constructor <;> decide +kernel

/-- Cell 20 is element 16 of the output: snapshot semantics gives 4, the SIMD call 16. -/
theorem C08_simd_vs_snapshot :
    cell (UnOp.square.vecSimd ((Target.sse true true).vec intEnv) 4 0 32#32 twos) 20 = some 16 := by
  decide +kernel

end overlap

end Nova
