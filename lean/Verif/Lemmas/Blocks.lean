import Verif.SpecBlocks
import Verif.Props.C01_Elementwise
import Verif.Props.C13_Ramps

/-!
# Lemmas for processing a buffer in blocks
-/

namespace Nova
open Spec
variable {α : Type}

/-- `m'` differs from `m` only in elements of `out[0..N)` outside the block `out[o..o+k)`. -/
def Agree (m m' : Mem α) (out N o k : Nat) : Prop :=
  ∀ a, m' a = m a ∨ ((out ≤ a ∧ a < out + N) ∧ ¬ (out + o ≤ a ∧ a < out + o + k) ∧ (m' a).isSome)

theorem Agree.alloc {m m' : Mem α} {out N o k : Nat} (h : Agree m m' out N o k) (hk : o + k ≤ N)
    (ha : Allocated m out N) : Allocated m' (out + o) k := by
  intro i hi
  rcases h (out + o + i) with h | h
  · rw [h, Nat.add_assoc]; exact ha _ (by omega)
  · exact h.2.2

theorem Agree.holds {m m' : Mem α} {out N o k p : Nat} {x : Nat → α} (h : Agree m m' out N o k)
    (hk : o + k ≤ N) (hh : Holds m p N x) (hp : p = out ∨ p + N ≤ out ∨ out + N ≤ p) :
    Holds m' (p + o) k (fun i => x (o + i)) := by
  intro i hi
  rcases h (p + o + i) with h | h
  · rw [h, Nat.add_assoc]; exact hh _ (by omega)
  · obtain ⟨h1, h2, -⟩ := h
    omega

theorem safe_block {out N o k p : Nat} (hk : o + k ≤ N) (hp : p = out ∨ p + N ≤ out ∨ out + N ≤ p) :
    SafePlacement (out + o) (p + o) k := by
  unfold SafePlacement
  omega

theorem scalarRamp_add (A : Arith α) (b s : α) (o i : Nat) :
    scalarRamp A (scalarRamp A b s o) s i = scalarRamp A b s (o + i) := by
  induction i with
  | zero => rfl
  | succ i ih =>
    show A.add (scalarRamp A (scalarRamp A b s o) s i) s = A.add (scalarRamp A b s (o + i)) s
    rw [ih]

theorem Agree.scalar {A : Arith α} {m m' : Mem α} {out N o k : Nat} {a : SArg α} {x : Nat → α}
    (h : Agree m m' out N o k) (hk : o + k ≤ N) (ha : ScalarSupplies A m out N a x) (hp : Apart out N a) :
    ScalarSupplies A m' (out + o) k (argFrom (scalarRamp A) o a) (fun i => x (o + i)) := by
  cases a with
  | ptr p => exact ⟨h.holds hk ha.1 hp, safe_block hk hp⟩
  | scalar c => exact fun i hi => ha _ (by omega)
  | ramp b s =>
    intro i hi
    show x (o + i) = _
    rw [scalarRamp_add]
    exact ha _ (by omega)

/-- The ramp that starts at the value `r base slope o` is the rest of the ramp. -/
def Continues (I : VecImpl α) (r : α → α → Nat → α) : SArg α → Prop
  | .ramp b s => ∀ o i, simdRamp I (r b s o) s i = simdRamp I b s (o + i)
  | _ => True

theorem steady_continues {I : VecImpl α} {r : α → α → Nat → α} {a : SArg α} (h : Steady a) :
    Continues I r a := by
  cases a with
  | ptr p => trivial
  | scalar c => trivial
  | ramp b s => exact h.elim

theorem exact_continues [CommRing α] (t : Target) (E : Env α) (hE : E.Exact) (a : SArg α) :
    Continues (t.vec E) exactRamp a := by
  cases a with
  | ptr p => trivial
  | scalar c => trivial
  | ramp b s =>
    intro o i
    rw [C13_simd t E hE, C13_simd t E hE]
    unfold exactRamp
    push_cast
    ring

theorem Agree.simd {I : VecImpl α} {al : Nat} {r : α → α → Nat → α} {m m' : Mem α} {out N o k : Nat}
    {a : SArg α} {x : Nat → α} (h : Agree m m' out N o k) (hk : o + k ≤ N) (hal : al ∣ o)
    (ha : SimdSupplies I al m out N a x) (hp : Apart out N a) (hc : Continues I r a) :
    SimdSupplies I al m' (out + o) k (argFrom r o a) (fun i => x (o + i)) := by
  cases a with
  | ptr p => exact ⟨(Nat.dvd_add_right ha.1).mpr hal, h.holds hk ha.2.1 hp, safe_block hk hp⟩
  | scalar c => exact fun i hi => ha _ (by omega)
  | ramp b s =>
    intro i hi
    show x (o + i) = _
    rw [hc]
    exact ha _ (by omega)

theorem inOrder_aux {call : Nat → BitVec 32 → Exec α Unit} {m : Mem α} {out N : Nat} {y : Nat → α}
    (bs : List Block) (D : Nat → Prop) [DecidablePred D]
    (hin : ∀ b ∈ bs, b.1 + b.2.toNat ≤ N) (hdis : bs.Pairwise fun b c => ∀ i, b.Has i → ¬ c.Has i)
    (hD : ∀ b ∈ bs, ∀ i, D i → ¬ b.Has i) (hDN : ∀ i, D i → i < N)
    (hc : ∀ b ∈ bs, ∀ m', Agree m m' out N b.1 b.2.toNat →
      call b.1 b.2 m' = .ok ((), overwrite m' (out + b.1) b.2.toNat fun i => y (b.1 + i)))
    (hcov : ∀ i, i < N → D i ∨ ∃ b ∈ bs, b.Has i) :
    inOrder call bs (fun a => if out ≤ a ∧ a < out + N ∧ D (a - out) then some (y (a - out)) else m a)
      = .ok ((), overwrite m out N y) := by
  induction bs generalizing D with
  | nil =>
    show Except.ok ((), _) = _
    congr 2
    funext a
    unfold overwrite
    by_cases ha : out ≤ a ∧ a < out + N
    · rcases hcov (a - out) (by omega) with h | ⟨b, hb, -⟩
      · rw [if_pos ha, if_pos ⟨ha.1, ha.2, h⟩]
      · cases hb
    · rw [if_neg ha, if_neg fun h => ha ⟨h.1, h.2.1⟩]
  | cons b bs ih =>
    have hb : b ∈ b :: bs := List.mem_cons_self
    obtain ⟨hd1, hd2⟩ := List.pairwise_cons.mp hdis
    show (call b.1 b.2 >>= fun _ => inOrder call bs) _ = _
    rw [Exec.bind_ok (hc b hb _ ?_)]
    · have : DecidablePred fun i => D i ∨ b.Has i := fun i => by unfold Block.Has; exact inferInstance
      have hI := hin b hb
      have e : overwrite (fun a => if out ≤ a ∧ a < out + N ∧ D (a - out) then some (y (a - out)) else m a)
            (out + b.1) b.2.toNat (fun i => y (b.1 + i))
          = fun a => if out ≤ a ∧ a < out + N ∧ (D (a - out) ∨ b.Has (a - out)) then some (y (a - out)) else m a := by
        funext a
        unfold overwrite
        by_cases h : out + b.1 ≤ a ∧ a < out + b.1 + b.2.toNat
        · rw [if_pos h, if_pos ⟨by omega, by omega, Or.inr ⟨by omega, by omega⟩⟩,
            show (fun i => y (b.1 + i)) (a - (out + b.1)) = y (a - out) from congrArg y (by omega)]
        · rw [if_neg h]
          show (if out ≤ a ∧ a < out + N ∧ D (a - out) then some (y (a - out)) else m a) = _
          by_cases h2 : out ≤ a ∧ a < out + N ∧ D (a - out)
          · rw [if_pos h2, if_pos ⟨h2.1, h2.2.1, Or.inl h2.2.2⟩]
          · rw [if_neg h2, if_neg]
            rintro ⟨h3, h4, h5 | h5⟩
            · exact h2 ⟨h3, h4, h5⟩
            · unfold Block.Has at h5
              omega
      rw [e]
      refine ih (fun i => D i ∨ b.Has i) (fun c h => hin c (List.mem_cons_of_mem _ h)) hd2 ?_ ?_
        (fun c h => hc c (List.mem_cons_of_mem _ h)) ?_
      · rintro c h i (h1 | h1)
        · exact hD c (List.mem_cons_of_mem _ h) i h1
        · exact hd1 c h i h1
      · rintro i (h1 | h1)
        · exact hDN i h1
        · unfold Block.Has at h1
          omega
      · intro i hi
        rcases hcov i hi with h | ⟨c, h, h1⟩
        · exact Or.inl (Or.inl h)
        · rcases List.mem_cons.mp h with rfl | h
          · exact Or.inl (Or.inr h1)
          · exact Or.inr ⟨c, h, h1⟩
    · intro a
      show (if _ then _ else _) = _ ∨ _
      by_cases h2 : out ≤ a ∧ a < out + N ∧ D (a - out)
      · right
        refine ⟨⟨h2.1, h2.2.1⟩, ?_, ?_⟩
        · intro h
          exact hD b hb _ h2.2.2 ⟨by omega, by omega⟩
        · show (if _ then _ else _ : Option α).isSome
          rw [if_pos h2]
          rfl
      · left
        rw [if_neg h2]

theorem inOrder_ok {call : Nat → BitVec 32 → Exec α Unit} {m : Mem α} {out N : Nat} {y : Nat → α}
    {bs : List Block} (h : Cuts bs N)
    (hc : ∀ b ∈ bs, ∀ m', Agree m m' out N b.1 b.2.toNat →
      call b.1 b.2 m' = .ok ((), overwrite m' (out + b.1) b.2.toNat fun i => y (b.1 + i))) :
    inOrder call bs m = .ok ((), overwrite m out N y) := by
  have := inOrder_aux (m := m) (out := out) (N := N) (y := y) (call := call) bs (fun _ => False) h.inside
    h.disjoint (fun _ _ _ h => h.elim) (fun _ h => h.elim) hc (fun i hi => Or.inr (h.cover i hi))
  simpa using this

/-- The first block of two. -/
theorem overwrite_two {m : Mem α} {out n k : Nat} {y : Nat → α} :
    overwrite (overwrite m out n y) (out + n) k (fun i => y (n + i)) = overwrite m out (n + k) y := by
  funext a
  unfold overwrite
  by_cases h : out + n ≤ a ∧ a < out + n + k
  · rw [if_pos h, if_pos (by omega), show (fun i => y (n + i)) (a - (out + n)) = y (a - out) from congrArg y (by omega)]
  · rw [if_neg h]
    by_cases h2 : out ≤ a ∧ a < out + n
    · rw [if_pos h2, if_pos (by omega)]
    · rw [if_neg h2, if_neg (by omega)]

theorem overwrite_alloc_rest {m : Mem α} {out n k : Nat} {y : Nat → α} (h : Allocated m out (n + k)) :
    Allocated (overwrite m out n y) (out + n) k := by
  intro i hi
  unfold overwrite
  rw [if_neg (by omega), Nat.add_assoc]
  exact h _ (by omega)

theorem overwrite_holds {m : Mem α} {out p n k : Nat} {x y : Nat → α} (h : Holds m p (n + k) x)
    (hs : SafePlacement out p (n + k)) :
    Holds (overwrite m out n y) (p + n) k (fun i => x (n + i)) := by
  intro i hi
  unfold SafePlacement at hs
  unfold overwrite
  rw [if_neg (by omega), Nat.add_assoc]
  exact h _ (by omega)

theorem holds_first {m : Mem α} {p n k : Nat} {x : Nat → α} (h : Holds m p (n + k) x) : Holds m p n x :=
  fun i hi => h i (by omega)

theorem alloc_first {m : Mem α} {p n k : Nat} (h : Allocated m p (n + k)) : Allocated m p n :=
  fun i hi => h i (by omega)

theorem safe_first {out p n k : Nat} (h : SafePlacement out p (n + k)) : SafePlacement out p n := by
  unfold SafePlacement at *
  omega

theorem safe_second {out p n k : Nat} (h : SafePlacement out p (n + k)) :
    SafePlacement (out + n) (p + n) k := by
  unfold SafePlacement at *
  omega

theorem scalar_first {A : Arith α} {m : Mem α} {out n k : Nat} {a : SArg α} {x : Nat → α}
    (h : ScalarSupplies A m out (n + k) a x) : ScalarSupplies A m out n a x := by
  cases a with
  | ptr p => exact ⟨holds_first h.1, safe_first h.2⟩
  | scalar c => exact fun i hi => h i (by omega)
  | ramp b s => exact fun i hi => h i (by omega)

theorem scalar_second {A : Arith α} {m : Mem α} {out n k : Nat} {a : SArg α} {x y : Nat → α}
    (h : ScalarSupplies A m out (n + k) a x) :
    ScalarSupplies A (overwrite m out n y) (out + n) k (argFrom (scalarRamp A) n a) (fun i => x (n + i)) := by
  cases a with
  | ptr p => exact ⟨overwrite_holds h.1 h.2, safe_second h.2⟩
  | scalar c => exact fun i hi => h _ (by omega)
  | ramp b s =>
    intro i hi
    show x (n + i) = _
    rw [scalarRamp_add]
    exact h _ (by omega)

theorem simd_first {I : VecImpl α} {al : Nat} {m : Mem α} {out n k : Nat} {a : SArg α} {x : Nat → α}
    (h : SimdSupplies I al m out (n + k) a x) : SimdSupplies I al m out n a x := by
  cases a with
  | ptr p => exact ⟨h.1, holds_first h.2.1, safe_first h.2.2⟩
  | scalar c => exact fun i hi => h i (by omega)
  | ramp b s => exact fun i hi => h i (by omega)

theorem simd_second {I : VecImpl α} {al : Nat} {r : α → α → Nat → α} {m : Mem α} {out n k : Nat}
    {a : SArg α} {x y : Nat → α} (hal : al ∣ n) (hc : Continues I r a)
    (h : SimdSupplies I al m out (n + k) a x) :
    SimdSupplies I al (overwrite m out n y) (out + n) k (argFrom r n a) (fun i => x (n + i)) := by
  cases a with
  | ptr p => exact ⟨(Nat.dvd_add_right h.1).mpr hal, overwrite_holds h.2.1 h.2.2, safe_second h.2.2⟩
  | scalar c => exact fun i hi => h _ (by omega)
  | ramp b s =>
    intro i hi
    show x (n + i) = _
    rw [hc]
    exact h _ (by omega)

theorem toNat_split {n k : BitVec 32} (h : n.toNat + k.toNat < 2 ^ 32) : (n + k).toNat = n.toNat + k.toNat := by
  rw [BitVec.toNat_add, Nat.mod_eq_of_lt h]

theorem align_dvd_perLine (t : Target) : t.align ∣ t.perLine := by
  cases t <;> simp only [Target.align, Target.perLine, Target.size] <;> decide

end Nova
