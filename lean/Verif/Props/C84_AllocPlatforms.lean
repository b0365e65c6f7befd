import Verif.SpecAlloc
import Verif.Props.C10_Faults
import Verif.Props.C54_Alloc

/-!
# C84: memory from `malloc_aligned` suits the aligned functions, on every platform but Apple's with AVX
-/

namespace Nova.Alloc
open Spec

/-- The alignment in bytes that a branch gives. -/
def Branch.bytes : Branch → Nat
  | .posix => 64
  | .apple => 16
  | .sse2 => 64
  | .tbb => 64
  | .portable => 16

/-- A pointer from `malloc_aligned` that is not null is aligned, and `nbytes` bytes at it belong to the block. -/
theorem C84_aligned (b : Branch) (l : Lib) (hl : l.Documented (b = .apple)) {nbytes : Addr} {m m' : Bytes} {p : Addr}
    (hn : nbytes.toNat + 23 < 2 ^ 64) (h : mallocOn b l nbytes m = some (p, m')) (hp : p ≠ 0) :
    b.bytes ∣ p.toNat ∧ IsBlock p nbytes.toNat := by
  cases b with
  | posix =>
    unfold mallocOn at h
    cases hq : l.posixMemalign 64 nbytes with
    | none => simp only [hq] at h; cases h; exact absurd rfl hp
    | some q => simp only [hq] at h; cases h; exact ⟨(hl.posix _ _ _ hq hp).2, (hl.posix _ _ _ hq hp).1⟩
  | apple =>
    cases h
    exact ⟨hl.mallocApple (by simp) _, hl.malloc _ hp⟩
  | sse2 =>
    cases h
    exact ⟨(hl.mm _ _ hp).2, (hl.mm _ _ hp).1⟩
  | tbb =>
    unfold mallocOn at h
    cases hq : l.tbbAllocate (nbytes.toNat * 8) with
    | none => simp only [hq] at h; cases h
    | some q =>
      simp only [hq] at h
      cases h
      obtain ⟨⟨h1, h2⟩, h3⟩ := hl.tbb _ _ hq
      exact ⟨h3, h1, by omega⟩
  | portable =>
    have h : mallocAligned l.malloc nbytes m = (p, m') := Option.some.inj h
    have h0 : l.malloc (requested nbytes) ≠ 0 := by
      intro h0
      rw [C54_null l.malloc nbytes m h0] at h
      cases h
      exact hp rfl
    have hb := (hl.malloc _ h0).2
    obtain ⟨h1, h2, -, -, h3, -⟩ := C54_malloc l.malloc nbytes m hn h0 hb
    rw [h] at h1 h3
    refine ⟨Nat.dvd_of_mod_eq_zero h1, hp, ?_⟩
    show p.toNat + _ < _
    have h3 : p.toNat + nbytes.toNat ≤ _ := h3
    omega

theorem suits_of_dvd {t : Target} {p : Addr} (h : t.align * t.elemBytes ∣ p.toNat) : Suits t p := by
  have he : 0 < t.elemBytes := by cases t <;> simp [Target.elemBytes]
  obtain ⟨k, hk⟩ := h
  unfold Suits elemIndex
  rw [hk]
  refine ⟨⟨t.align * k, by ac_rfl⟩, ?_⟩
  rw [show t.align * t.elemBytes * k = t.elemBytes * (t.align * k) by ac_rfl, Nat.mul_div_cancel_left _ he]
  exact Nat.dvd_mul_right _ _

/-- On every build but those for Apple's systems with AVX, memory from `malloc_aligned` suits the aligned functions for
`float` and `double`. -/
theorem C84_suits_partial (c : Macros) (hc : c.Possible) (hx : c.branch = .apple → c.avx = false) (l : Lib)
    (hl : l.Documented (c.branch = .apple)) {nbytes : Addr} {m m' : Bytes} {p : Addr} (hn : nbytes.toNat + 23 < 2 ^ 64)
    (h : mallocOn c.branch l nbytes m = some (p, m')) (hp : p ≠ 0) : Suits c.float p ∧ Suits c.double p := by
  have h1 := (C84_aligned c.branch l hl hn h hp).1
  have hdiv : ∀ t : Target, t.align * t.elemBytes ∣ c.branch.bytes → Suits t p := fun t ht =>
    suits_of_dvd (Nat.dvd_trans ht h1)
  clear h h1 hl
  obtain ⟨a, b, d, n, al, av, s, s2, s3, s41⟩ := c
  have h2 := hc.avx_sse2
  simp only at h2
  refine ⟨hdiv _ ?_, hdiv _ ?_⟩
  · revert h2 hx
    clear hdiv hc
    simp only [Macros.float, Macros.branch]
    revert a b d n al av s s2
    cases s3 <;> cases s41 <;> decide
  · revert h2 hx
    clear hdiv hc
    simp only [Macros.double, Macros.branch]
    revert a b d n al av s s2 s3 s41
    decide +kernel

/-- `free_aligned` passes to the system what the system returned, if the bytes before the block still are as
`malloc_aligned` left them. -/
theorem C84_free (b : Branch) (hb : b ≠ .portable) (l : Lib) {nbytes : Addr} {m m' m2 : Bytes} {p : Addr}
    (h : mallocOn b l nbytes m = some (p, m')) (hp : p ≠ 0) :
    m' = m ∧ (freeOn b m2 p = p) ∧
    (l.posixMemalign 64 nbytes = some p ∨ l.malloc nbytes = p ∨ l.mmMalloc nbytes 64 = p ∨
      l.tbbAllocate (nbytes.toNat * 8) = some p) := by
  cases b with
  | posix =>
    unfold mallocOn at h
    cases hq : l.posixMemalign 64 nbytes with
    | none => simp only [hq] at h; cases h; exact absurd rfl hp
    | some q => simp only [hq] at h; cases h; exact ⟨rfl, rfl, Or.inl rfl⟩
  | apple => cases h; exact ⟨rfl, rfl, Or.inr (Or.inl rfl)⟩
  | sse2 => cases h; exact ⟨rfl, rfl, Or.inr (Or.inr (Or.inl rfl))⟩
  | tbb =>
    unfold mallocOn at h
    cases hq : l.tbbAllocate (nbytes.toNat * 8) with
    | none => simp only [hq] at h; cases h
    | some q => simp only [hq] at h; cases h; exact ⟨rfl, rfl, Or.inr (Or.inr (Or.inr rfl))⟩
  | portable => exact absurd rfl hb

/-- On the portable branch `free_aligned` passes on what `malloc` returned, if the program has written only to the
`nbytes` bytes it was given. -/
theorem C84_free_portable (l : Lib) (apple : Bool) (hl : l.Documented apple) {nbytes : Addr} {m m' m2 : Bytes} {p : Addr}
    (hn : nbytes.toNat + 23 < 2 ^ 64) (h : mallocOn .portable l nbytes m = some (p, m')) (hp : p ≠ 0)
    (hm : ∀ x, ¬ InRange x p nbytes.toNat → m2 x = m' x) :
    freeOn .portable m2 p = l.malloc (requested nbytes) := by
  have h : mallocAligned l.malloc nbytes m = (p, m') := Option.some.inj h
  have h0 : l.malloc (requested nbytes) ≠ 0 := by
    intro h0
    rw [C54_null l.malloc nbytes m h0] at h
    cases h
    exact hp rfl
  have := C54_free l.malloc nbytes m m2 hn h0 (hl.malloc _ h0).2 (fun x _ hx => by
    rw [h] at hx ⊢; exact hm x hx)
  rw [h] at this
  exact this

/-- `calloc_aligned`: the `nbytes` bytes at the pointer are zero. -/
theorem C84_calloc (b : Branch) (l : Lib) {nbytes : Addr} {m m' : Bytes} {p : Addr}
    (h : callocOn b l nbytes m = some (p, m')) (hp : p ≠ 0) (x : Addr) (hx : (x - p).toNat < nbytes.toNat) :
    m' x = 0 := by
  unfold callocOn at h
  cases hq : mallocOn b l nbytes m with
  | none => simp only [hq] at h; cases h
  | some r =>
    simp only [hq] at h
    cases h
    rw [if_pos hp]
    exact if_pos hx

/-! ## What is not true -/

/-- A system whose `malloc` returns 16 modulo 32. -/
def oddLib : Lib where
  posixMemalign _ _ := none
  malloc size := if size.toNat < 2 ^ 32 then 0x1010 else 0
  mmMalloc _ _ := 0
  tbbAllocate _ := none

theorem oddLib_documented : oddLib.Documented true where
  posix _ _ _ h := by cases h
  malloc size h := by
    unfold oddLib at h ⊢
    dsimp only at h ⊢
    by_cases hs : size.toNat < 2 ^ 32
    · rw [if_pos hs]; exact ⟨by decide, by show (0x1010 : BitVec 64).toNat + _ < _; rw [show (0x1010 : BitVec 64).toNat = 0x1010 from rfl]; omega⟩
    · rw [if_neg hs] at h; exact absurd rfl h
  mallocApple _ size := by
    unfold oddLib
    dsimp only
    by_cases hs : size.toNat < 2 ^ 32
    · rw [if_pos hs]; decide
    · rw [if_neg hs]; decide
  mm _ _ h := absurd rfl h
  tbb _ _ h := by cases h

/-- Apple's systems with AVX: memory from `malloc_aligned` need not be aligned to the 64 bytes that
`malloc_memory_alignment` says, and an AVX call on it faults. -/
theorem C84_negation_apple : ∃ c : Macros, c.Possible ∧ c.branch = .apple ∧ c.float = .avxFloat ∧
    ∀ (nbytes : Addr) (m : Bytes), nbytes.toNat < 2 ^ 32 → ∃ p, mallocOn c.branch oddLib nbytes m = some (p, m) ∧
      p ≠ 0 ∧ ¬ 64 ∣ p.toNat ∧ ¬ Suits c.float p ∧
      ∀ (E : Env Int) (op : UnOp) (n : BitVec 32) (mem : Mem Int),
        ∃ e, op.vecSimd (c.float.vec E) (elemIndex c.float p) (elemIndex c.float p) n mem = .error e := by
  refine ⟨⟨false, true, false, false, false, true, true, true, true, true⟩, ⟨by simp, by simp, by simp, by simp, by simp⟩,
    rfl, rfl, fun nbytes m hn => ⟨0x1010, ?_, by decide, by decide, by unfold Suits; decide, fun E op n mem => ?_⟩⟩
  · show some (oddLib.malloc nbytes, m) = _
    unfold oddLib
    dsimp only
    rw [if_pos hn]
  · exact C11_unary .avxFloat (by decide) E op (by decide) mem

/-- A build uses a vector class only if the compiler may use its instructions, and the generic class only if there is no
other. -/
theorem C84_classes (c : Macros) :
    HasInstructions c c.float ∧ HasInstructions c c.double ∧
    (c.float = .genericFloat → ¬ c.neon ∧ ¬ c.altivec ∧ ¬ c.avx ∧ ¬ c.sse) ∧
    (c.double = .genericDouble → ¬ c.avx ∧ ¬ c.sse2) := by
  unfold Macros.float Macros.double
  refine ⟨?_, ?_, ?_, ?_⟩
  · split
    · assumption
    · split
      · assumption
      · split
        · assumption
        · split
          · exact ⟨by assumption, id, id⟩
          · trivial
  · split
    · assumption
    · split
      · assumption
      · trivial
  · cases c.neon <;> cases c.altivec <;> cases c.avx <;> cases c.sse <;> simp
  · cases c.avx <;> cases c.sse2 <;> simp

example : HasInstructions ⟨true, false, false, false, false, false, true, true, false, false⟩ .sse2 := rfl

/-- The TBB branch allocates eight times the size. -/
theorem C84_tbb_size (l : Lib) (nbytes : Addr) (m : Bytes) :
    mallocOn .tbb l nbytes m = (l.tbbAllocate (8 * nbytes.toNat)).map fun p => (p, m) := by
  unfold mallocOn
  rw [Nat.mul_comm]
  cases l.tbbAllocate (8 * nbytes.toNat) <;> rfl

/-- A failure is reported by a null pointer on all branches but TBB's, which throws. -/
theorem C84_failure (b : Branch) (l : Lib) (nbytes : Addr) (m : Bytes) :
    mallocOn b l nbytes m = none ↔ b = .tbb ∧ l.tbbAllocate (8 * nbytes.toNat) = none := by
  cases b with
  | tbb => rw [C84_tbb_size]; simp
  | posix => unfold mallocOn; cases l.posixMemalign 64 nbytes <;> simp
  | apple => simp [mallocOn]
  | sse2 => simp [mallocOn]
  | portable => simp [mallocOn]

/-- The hypotheses of `C84_suits_partial` can be met: a portable build with SSE but without SSE2. -/
example : ∃ p m', mallocOn (Macros.branch ⟨false, false, false, false, false, false, true, false, false, false⟩) oddLib 100
    (fun _ => 0) = some (p, m') ∧ p ≠ 0 ∧
    Suits (Macros.float ⟨false, false, false, false, false, false, true, false, false, false⟩) p := by
  have e : mallocOn .portable oddLib 100 (fun _ => 0) = some (0x1020, store64 (fun _ => 0) (0x1020 - 8) 0x1010) := by
    unfold mallocOn mallocAligned oddLib
    rfl
  refine ⟨_, _, e, by decide, ?_⟩
  exact (C84_suits_partial ⟨false, false, false, false, false, false, true, false, false, false⟩
    ⟨by simp, by simp, by simp, by simp, by simp⟩ (by decide) oddLib
    { oddLib_documented with mallocApple := fun h => by simp [Macros.branch] at h } (by decide) e (by decide)).1

end Nova.Alloc
