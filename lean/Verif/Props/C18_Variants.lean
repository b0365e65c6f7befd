import Verif.Props.C15_Memory

/-!
# C18, by name

What each of the copy functions requires of its addresses.  The first letter of a name is the source, the second the
destination: `a` is aligned, `n` is any address.  `copyvec_simd` is `copyvec_aa_simd`.  The Altivec class ignores the low bits of
every address, so there all of them need aligned buffers.
-/

namespace Nova
open Spec Examples

variable {α : Type}

/-- Run-time size.  As in `C18_copyvec_simd_partial`, one more vector has to be readable after the source. -/
theorem C18_variants_partial (t : Target) (E : Env α) {m : Mem α} {dest src : Nat} {n : BitVec 32} {x : Nat → α}
    (hn : 0 < n.toNat) (hmul : t.perLine ∣ n.toNat) (hsrc : Holds m src n.toNat x)
    (hread : Allocated m src (n.toNat + t.size)) (hout : Allocated m dest n.toNat) (hsafe : SafePlacement dest src n.toNat) :
    (t.align ∣ src → t.align ∣ dest → copyvecSimd (t.vec E) dest src n m = .ok ((), overwrite m dest n.toNat x)) ∧
    (t.align ∣ src → t.align ∣ dest → copyvecSimd' (t.vec E) .aa dest src n m = .ok ((), overwrite m dest n.toNat x)) ∧
    (t ≠ .altivec → t.align ∣ dest → copyvecSimd' (t.vec E) .na dest src n m = .ok ((), overwrite m dest n.toNat x)) ∧
    (t ≠ .altivec → t.align ∣ src → copyvecSimd' (t.vec E) .an dest src n m = .ok ((), overwrite m dest n.toNat x)) ∧
    (t ≠ .altivec → copyvecSimd' (t.vec E) .nn dest src n m = .ok ((), overwrite m dest n.toNat x)) := by
  have key := fun v hs hd => C18_copyvec_simd_partial t E v hn hmul hs hd hsrc hread hout hsafe
  have no : t ≠ .altivec → ∀ {a : Nat}, t.AddrOk false a := fun ht _ h => absurd (h.resolve_left (by decide)) ht
  exact ⟨fun a b => key .aa (fun _ => a) (fun _ => b), fun a b => key .aa (fun _ => a) (fun _ => b),
    fun ht b => key .na (no ht) (fun _ => b), fun ht a => key .an (fun _ => a) (no ht), fun ht => key .nn (no ht) (no ht)⟩

/-- Compile-time size. -/
theorem C18_variants_n_partial (t : Target) (E : Env α) {m : Mem α} {dest src N : Nat} {x : Nat → α}
    (hN : 0 < N) (hmul : t.size ∣ N) (hsrc : Holds m src N x)
    (hread : Allocated m src (N + t.size)) (hout : Allocated m dest N) (hsafe : SafePlacement dest src N) :
    (t.align ∣ src → t.align ∣ dest → copyvecSimdN (t.vec E) N dest src m = .ok ((), overwrite m dest N x)) ∧
    (t.align ∣ src → t.align ∣ dest → copyvecSimdN' (t.vec E) .aa N dest src m = .ok ((), overwrite m dest N x)) ∧
    (t ≠ .altivec → t.align ∣ dest → copyvecSimdN' (t.vec E) .na N dest src m = .ok ((), overwrite m dest N x)) ∧
    (t ≠ .altivec → t.align ∣ src → copyvecSimdN' (t.vec E) .an N dest src m = .ok ((), overwrite m dest N x)) ∧
    (t ≠ .altivec → copyvecSimdN' (t.vec E) .nn N dest src m = .ok ((), overwrite m dest N x)) := by
  have key := fun v hs hd => C18_copyvec_simd_n_partial t E v hN hmul hs hd hsrc hread hout hsafe
  have no : t ≠ .altivec → ∀ {a : Nat}, t.AddrOk false a := fun ht _ h => absurd (h.resolve_left (by decide)) ht
  exact ⟨fun a b => key .aa (fun _ => a) (fun _ => b), fun a b => key .aa (fun _ => a) (fun _ => b),
    fun ht b => key .na (no ht) (fun _ => b), fun ht a => key .an (fun _ => a) (no ht), fun ht => key .nn (no ht) (no ht)⟩

/-- From address 3 to address 33, both unaligned. -/
example : copyvecSimd' ((Target.sse false false).vec intEnv) .nn 33 3 16#32 (ramp 49)
    = .ok ((), overwrite (ramp 49) 33 16 fun i => 10 * ((3 + i : Nat) : Int) - 100) :=
  (C18_variants_partial (.sse false false) intEnv (by decide) (by decide) (by unfold Holds; decide)
    (by unfold Allocated; decide) (by unfold Allocated; decide) (Or.inr (by decide))).2.2.2.2 (by decide)

/-- Eight floats from address 4 to address 24. -/
example : copyvecSimdN ((Target.sse false false).vec intEnv) 8 24 4 (ramp 40)
    = .ok ((), overwrite (ramp 40) 24 8 fun i => 10 * ((4 + i : Nat) : Int) - 100) :=
  (C18_variants_n_partial (.sse false false) intEnv (by decide) (by decide) (by unfold Holds; decide)
    (by unfold Allocated; decide) (by unfold Allocated; decide) (Or.inr (by decide))).1 (by decide) (by decide)

end Nova
