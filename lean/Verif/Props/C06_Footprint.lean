import Verif.Props.C05_Sizes

/-!
# C06, C07, C12: footprint, in-place operation, scalar arguments
-/

namespace Nova
open Spec
variable {α : Type}

/-! ## C06: only the caller's buffers are accessed -/

/-- The cells an argument of a call on `n` elements covers. -/
def argCells (n : Nat) : SArg α → Nat → Prop
  | .ptr p, a => p ≤ a ∧ a < p + n
  | _, _ => False

instance (n : Nat) (s : SArg α) : DecidablePred (argCells n s) := fun a => by
  cases s <;> unfold argCells <;> exact inferInstance

/-- The buffer `p[0..n)`. -/
def bufCells (p n : Nat) (a : Nat) : Prop := p ≤ a ∧ a < p + n

instance (p n : Nat) : DecidablePred (bufCells p n) := fun a => by
  unfold bufCells; exact inferInstance

theorem onlyCells_alloc {m : Mem α} {p n : Nat} {P : Nat → Prop} [DecidablePred P]
    (h : Allocated m p n) (hP : ∀ a, bufCells p n a → P a) : Allocated (onlyCells m P) p n := by
  intro i hi
  unfold onlyCells
  rw [if_pos (hP _ ⟨by omega, by omega⟩)]
  exact h i hi

theorem onlyCells_holds {m : Mem α} {p n : Nat} {x : Nat → α} {P : Nat → Prop} [DecidablePred P]
    (h : Holds m p n x) (hP : ∀ a, bufCells p n a → P a) : Holds (onlyCells m P) p n x := by
  intro i hi
  unfold onlyCells
  rw [if_pos (hP _ ⟨by omega, by omega⟩)]
  exact h i hi

theorem onlyCells_simd {I : VecImpl α} {al : Nat} {m : Mem α} {out n : Nat} {s : SArg α}
    {x : Nat → α} {P : Nat → Prop} [DecidablePred P] (h : SimdSupplies I al m out n s x)
    (hP : ∀ a, argCells n s a → P a) : SimdSupplies I al (onlyCells m P) out n s x := by
  cases s with
  | ptr p => exact ⟨h.1, onlyCells_holds h.2.1 hP, h.2.2⟩
  | scalar c => exact h
  | ramp b s => exact h

theorem onlyCells_scalar {A : Arith α} {m : Mem α} {out n : Nat} {s : SArg α}
    {x : Nat → α} {P : Nat → Prop} [DecidablePred P] (h : ScalarSupplies A m out n s x)
    (hP : ∀ a, argCells n s a → P a) : ScalarSupplies A (onlyCells m P) out n s x := by
  cases s with
  | ptr p => exact ⟨onlyCells_holds h.1 hP, h.2⟩
  | scalar c => exact h
  | ramp b s => exact h

/-- A call touches only the cells `P`, and writes only the cells `W`: on the memory that consists of
the cells `P` alone it succeeds and yields the same values as on the whole memory, and on the whole
memory the cells outside `W` keep their contents. -/
def Footprint (prog : Exec α Unit) (m : Mem α) (P W : Nat → Prop) [DecidablePred P] : Prop :=
  ∃ m' m0', prog m = .ok ((), m') ∧ prog (onlyCells m P) = .ok ((), m0') ∧
    (∀ a, W a → m0' a = m' a) ∧ (∀ a, ¬ W a → m' a = m a) ∧ (∀ a, ¬ P a → m0' a = none)

theorem footprint_of_overwrite {prog : Exec α Unit} {m : Mem α} {P : Nat → Prop}
    [DecidablePred P] {out n : Nat} {y : Nat → α} (hP : ∀ a, bufCells out n a → P a)
    (h1 : prog m = .ok ((), overwrite m out n y))
    (h2 : prog (onlyCells m P) = .ok ((), overwrite (onlyCells m P) out n y)) :
    Footprint prog m P (bufCells out n) := by
  refine ⟨_, _, h1, h2, ?_, ?_, ?_⟩
  · intro a ha
    unfold bufCells at ha
    unfold overwrite
    rw [if_pos ha, if_pos ha]
  · intro a ha
    unfold bufCells at ha
    unfold overwrite
    rw [if_neg ha]
  · intro a ha
    unfold overwrite
    have hb : ¬ (out ≤ a ∧ a < out + n) := fun h => ha (hP a h)
    rw [if_neg hb]
    exact if_neg ha

theorem C06_unary (t : Target) (E : Env α) (op : UnOp) {m : Mem α} {out inp : Nat}
    {n : BitVec 32} {x y y' : Nat → α} (hn : 0 < n.toNat) (hmul : t.perLine ∣ n.toNat)
    (hoal : t.align ∣ out) (hial : t.align ∣ inp) (hout : Allocated m out n.toNat)
    (hin : Holds m inp n.toNat x) (hs : SafePlacement out inp n.toNat)
    (hf : ∀ i, i < n.toNat → op.f E.L (x i) = .ok (y i))
    (hf' : ∀ i, i < n.toNat → op.f E.S (x i) = .ok (y' i)) :
    Footprint (op.vecSimd (t.vec E) out inp n) m
        (fun a => bufCells out n.toNat a ∨ bufCells inp n.toNat a) (bufCells out n.toNat) ∧
      Footprint (op.vec E.S out inp n) m
        (fun a => bufCells out n.toNat a ∨ bufCells inp n.toNat a) (bufCells out n.toNat) :=
  ⟨footprint_of_overwrite (fun _ h => Or.inl h)
      (C01_unary_simd t E op hn hmul hoal hial hout hin hs hf)
      (C01_unary_simd t E op hn hmul hoal hial (onlyCells_alloc hout fun _ h => Or.inl h)
        (onlyCells_holds hin fun _ h => Or.inr h) hs hf),
    footprint_of_overwrite (fun _ h => Or.inl h)
      (C01_unary_scalar E.S op hn hout hin hs hf')
      (C01_unary_scalar E.S op hn (onlyCells_alloc hout fun _ h => Or.inl h)
        (onlyCells_holds hin fun _ h => Or.inr h) hs hf')⟩

theorem C06_binary (t : Target) (E : Env α) (op : BinOp) {m : Mem α} {out : Nat}
    {a b : SArg α} {n : BitVec 32} {x y x' y' : Nat → α} (hn : 0 < n.toNat)
    (hmul : t.perLine ∣ n.toNat) (hoal : t.align ∣ out) (hout : Allocated m out n.toNat)
    (ha : SimdSupplies (t.vec E) t.align m out n.toNat a x)
    (hb : SimdSupplies (t.vec E) t.align m out n.toNat b y)
    (ga : ScalarSupplies E.S m out n.toNat a x')
    (gb : ScalarSupplies E.S m out n.toNat b y') :
    Footprint (op.vecSimd (t.vec E) out a b n) m
        (fun j => bufCells out n.toNat j ∨ argCells n.toNat a j ∨ argCells n.toNat b j)
        (bufCells out n.toNat) ∧
      Footprint (op.vec E.S out a b n) m
        (fun j => bufCells out n.toNat j ∨ argCells n.toNat a j ∨ argCells n.toNat b j)
        (bufCells out n.toNat) :=
  ⟨footprint_of_overwrite (fun _ h => Or.inl h)
      (C02_binary_simd t E op hn hmul hoal hout ha hb)
      (C02_binary_simd t E op hn hmul hoal (onlyCells_alloc hout fun _ h => Or.inl h)
        (onlyCells_simd ha fun _ h => Or.inr (Or.inl h)) (onlyCells_simd hb fun _ h => Or.inr (Or.inr h))),
    footprint_of_overwrite (fun _ h => Or.inl h)
      (C02_binary_scalar E.S op hn hout ga gb)
      (C02_binary_scalar E.S op hn (onlyCells_alloc hout fun _ h => Or.inl h)
        (onlyCells_scalar ga fun _ h => Or.inr (Or.inl h)) (onlyCells_scalar gb fun _ h => Or.inr (Or.inr h)))⟩

theorem C06_ternary (t : Target) (E : Env α) (op : TerOp) {m : Mem α} {out : Nat}
    {a b c : SArg α} {n : BitVec 32} {x y z x' y' z' : Nat → α} (hn : 0 < n.toNat)
    (hmul : t.perLine ∣ n.toNat) (hoal : t.align ∣ out) (hout : Allocated m out n.toNat)
    (ha : SimdSupplies (t.vec E) t.align m out n.toNat a x)
    (hb : SimdSupplies (t.vec E) t.align m out n.toNat b y)
    (hc : SimdSupplies (t.vec E) t.align m out n.toNat c z)
    (ga : ScalarSupplies E.S m out n.toNat a x')
    (gb : ScalarSupplies E.S m out n.toNat b y')
    (gc : ScalarSupplies E.S m out n.toNat c z') :
    Footprint (op.vecSimd (t.vec E) out a b c n) m
        (fun j => bufCells out n.toNat j ∨ argCells n.toNat a j ∨ argCells n.toNat b j ∨ argCells n.toNat c j)
        (bufCells out n.toNat) ∧
      Footprint (op.vec E.S out a b c n) m
        (fun j => bufCells out n.toNat j ∨ argCells n.toNat a j ∨ argCells n.toNat b j ∨ argCells n.toNat c j)
        (bufCells out n.toNat) :=
  ⟨footprint_of_overwrite (fun _ h => Or.inl h)
      (C03_ternary_simd t E op hn hmul hoal hout ha hb hc)
      (C03_ternary_simd t E op hn hmul hoal (onlyCells_alloc hout fun _ h => Or.inl h)
        (onlyCells_simd ha fun _ h => Or.inr (Or.inl h)) (onlyCells_simd hb fun _ h => Or.inr (Or.inr (Or.inl h))) (onlyCells_simd hc fun _ h => Or.inr (Or.inr (Or.inr h)))),
    footprint_of_overwrite (fun _ h => Or.inl h)
      (C03_ternary_scalar E.S op hn hout ga gb gc)
      (C03_ternary_scalar E.S op hn (onlyCells_alloc hout fun _ h => Or.inl h)
        (onlyCells_scalar ga fun _ h => Or.inr (Or.inl h)) (onlyCells_scalar gb fun _ h => Or.inr (Or.inr (Or.inl h))) (onlyCells_scalar gc fun _ h => Or.inr (Or.inr (Or.inr h))))⟩

theorem C06_quad (t : Target) (E : Env α) (op : QuadOp) {m : Mem α} {out : Nat}
    {a b c d : SArg α} {n : BitVec 32} {x y z u x' y' z' u' : Nat → α} (hn : 0 < n.toNat)
    (hmul : t.perLine ∣ n.toNat) (hoal : t.align ∣ out) (hout : Allocated m out n.toNat)
    (ha : SimdSupplies (t.vec E) t.align m out n.toNat a x)
    (hb : SimdSupplies (t.vec E) t.align m out n.toNat b y)
    (hc : SimdSupplies (t.vec E) t.align m out n.toNat c z)
    (hd : SimdSupplies (t.vec E) t.align m out n.toNat d u)
    (ga : ScalarSupplies E.S m out n.toNat a x')
    (gb : ScalarSupplies E.S m out n.toNat b y')
    (gc : ScalarSupplies E.S m out n.toNat c z')
    (gd : ScalarSupplies E.S m out n.toNat d u') :
    Footprint (op.vecSimd (t.vec E) out a b c d n) m
        (fun j => bufCells out n.toNat j ∨ argCells n.toNat a j ∨ argCells n.toNat b j ∨ argCells n.toNat c j ∨ argCells n.toNat d j)
        (bufCells out n.toNat) ∧
      Footprint (op.vec E.S out a b c d n) m
        (fun j => bufCells out n.toNat j ∨ argCells n.toNat a j ∨ argCells n.toNat b j ∨ argCells n.toNat c j ∨ argCells n.toNat d j)
        (bufCells out n.toNat) :=
  ⟨footprint_of_overwrite (fun _ h => Or.inl h)
      (C04_quad_simd t E op hn hmul hoal hout ha hb hc hd)
      (C04_quad_simd t E op hn hmul hoal (onlyCells_alloc hout fun _ h => Or.inl h)
        (onlyCells_simd ha fun _ h => Or.inr (Or.inl h)) (onlyCells_simd hb fun _ h => Or.inr (Or.inr (Or.inl h))) (onlyCells_simd hc fun _ h => Or.inr (Or.inr (Or.inr (Or.inl h)))) (onlyCells_simd hd fun _ h => Or.inr (Or.inr (Or.inr (Or.inr h))))),
    footprint_of_overwrite (fun _ h => Or.inl h)
      (C04_quad_scalar E.S op hn hout ga gb gc gd)
      (C04_quad_scalar E.S op hn (onlyCells_alloc hout fun _ h => Or.inl h)
        (onlyCells_scalar ga fun _ h => Or.inr (Or.inl h)) (onlyCells_scalar gb fun _ h => Or.inr (Or.inr (Or.inl h))) (onlyCells_scalar gc fun _ h => Or.inr (Or.inr (Or.inr (Or.inl h)))) (onlyCells_scalar gd fun _ h => Or.inr (Or.inr (Or.inr (Or.inr h)))))⟩

/-! ## C07: in-place and backward-overlapping calls

`x` is what the input buffer contained before the call. -/

/-- `foo_vec_simd(p, p, n)` and `foo_vec(p, p, n)`. -/
theorem C07_unary_inplace (t : Target) (E : Env α) (op : UnOp) {m : Mem α} {p : Nat}
    {n : BitVec 32} {x y y' : Nat → α} (hn : 0 < n.toNat) (hmul : t.perLine ∣ n.toNat)
    (hal : t.align ∣ p) (hin : Holds m p n.toNat x)
    (hf : ∀ i, i < n.toNat → op.f E.L (x i) = .ok (y i))
    (hf' : ∀ i, i < n.toNat → op.f E.S (x i) = .ok (y' i)) :
    op.vecSimd (t.vec E) p p n m = .ok ((), overwrite m p n.toNat y) ∧
      op.vec E.S p p n m = .ok ((), overwrite m p n.toNat y') := by
  have hout : Allocated m p n.toNat := fun i hi => by rw [hin i hi]; rfl
  exact ⟨C01_unary_simd t E op hn hmul hal hal hout hin (Or.inl (Nat.le_refl p)) hf,
    C01_unary_scalar E.S op hn hout hin (Or.inl (Nat.le_refl p)) hf'⟩

/-- The output starts before the input, they overlap. -/
theorem C07_unary_backward (t : Target) (E : Env α) (op : UnOp) {m : Mem α} {out p : Nat}
    {n : BitVec 32} {x y y' : Nat → α} (hn : 0 < n.toNat) (hmul : t.perLine ∣ n.toNat)
    (hal : t.align ∣ out) (hal' : t.align ∣ p) (hlt : out < p) (_hov : p < out + n.toNat)
    (hout : Allocated m out n.toNat) (hin : Holds m p n.toNat x)
    (hf : ∀ i, i < n.toNat → op.f E.L (x i) = .ok (y i))
    (hf' : ∀ i, i < n.toNat → op.f E.S (x i) = .ok (y' i)) :
    op.vecSimd (t.vec E) out p n m = .ok ((), overwrite m out n.toNat y) ∧
      op.vec E.S out p n m = .ok ((), overwrite m out n.toNat y') :=
  ⟨C01_unary_simd t E op hn hmul hal hal' hout hin (Or.inl (Nat.le_of_lt hlt)) hf,
    C01_unary_scalar E.S op hn hout hin (Or.inl (Nat.le_of_lt hlt)) hf'⟩

/-- In a multi-argument call every buffer argument may be the output, or start after it. -/
def NotBefore (out : Nat) : SArg α → Prop
  | .ptr p => out ≤ p
  | _ => True

/-- The argument supplies the values `x` of the memory `m` before the call. -/
def SnapshotSimd (I : VecImpl α) (al : Nat) (m : Mem α) (n : Nat) : SArg α → (Nat → α) → Prop
  | .ptr p, x => al ∣ p ∧ Holds m p n x
  | .scalar c, x => ∀ i, i < n → x i = c
  | .ramp b s, x => ∀ i, i < n → x i = simdRamp I b s i

theorem supplies_of_notBefore {I : VecImpl α} {al : Nat} {m : Mem α} {out n : Nat} {s : SArg α}
    {x : Nat → α} (h : SnapshotSimd I al m n s x) (hb : NotBefore out s) :
    SimdSupplies I al m out n s x := by
  cases s with
  | ptr p => exact ⟨h.1, h.2, Or.inl hb⟩
  | scalar c => exact h
  | ramp b s => exact h

theorem C07_binary (t : Target) (E : Env α) (op : BinOp) {m : Mem α} {out : Nat}
    {a b : SArg α} {n : BitVec 32} {x y : Nat → α} (hn : 0 < n.toNat)
    (hmul : t.perLine ∣ n.toNat) (hoal : t.align ∣ out) (hout : Allocated m out n.toNat)
    (ha : SnapshotSimd (t.vec E) t.align m n.toNat a x) (oa : NotBefore out a)
    (hb : SnapshotSimd (t.vec E) t.align m n.toNat b y) (ob : NotBefore out b) :
    op.vecSimd (t.vec E) out a b n m
      = .ok ((), overwrite m out n.toNat fun i => op.f E.L (x i) (y i)) :=
  C02_binary_simd t E op hn hmul hoal hout (supplies_of_notBefore ha oa) (supplies_of_notBefore hb ob)

theorem C07_ternary (t : Target) (E : Env α) (op : TerOp) {m : Mem α} {out : Nat}
    {a b c : SArg α} {n : BitVec 32} {x y z : Nat → α} (hn : 0 < n.toNat)
    (hmul : t.perLine ∣ n.toNat) (hoal : t.align ∣ out) (hout : Allocated m out n.toNat)
    (ha : SnapshotSimd (t.vec E) t.align m n.toNat a x) (oa : NotBefore out a)
    (hb : SnapshotSimd (t.vec E) t.align m n.toNat b y) (ob : NotBefore out b)
    (hc : SnapshotSimd (t.vec E) t.align m n.toNat c z) (oc : NotBefore out c) :
    op.vecSimd (t.vec E) out a b c n m
      = .ok ((), overwrite m out n.toNat fun i => op.f E.L (x i) (y i) (z i)) :=
  C03_ternary_simd t E op hn hmul hoal hout (supplies_of_notBefore ha oa) (supplies_of_notBefore hb ob) (supplies_of_notBefore hc oc)

theorem C07_quad (t : Target) (E : Env α) (op : QuadOp) {m : Mem α} {out : Nat}
    {a b c d : SArg α} {n : BitVec 32} {x y z u : Nat → α} (hn : 0 < n.toNat)
    (hmul : t.perLine ∣ n.toNat) (hoal : t.align ∣ out) (hout : Allocated m out n.toNat)
    (ha : SnapshotSimd (t.vec E) t.align m n.toNat a x) (oa : NotBefore out a)
    (hb : SnapshotSimd (t.vec E) t.align m n.toNat b y) (ob : NotBefore out b)
    (hc : SnapshotSimd (t.vec E) t.align m n.toNat c z) (oc : NotBefore out c)
    (hd : SnapshotSimd (t.vec E) t.align m n.toNat d u) (od : NotBefore out d) :
    op.vecSimd (t.vec E) out a b c d n m
      = .ok ((), overwrite m out n.toNat fun i => op.f E.L (x i) (y i) (z i) (u i)) :=
  C04_quad_simd t E op hn hmul hoal hout (supplies_of_notBefore ha oa) (supplies_of_notBefore hb ob) (supplies_of_notBefore hc oc) (supplies_of_notBefore hd od)

/-! ## C12: a scalar argument is a constant buffer

Stated for each argument position; the other arguments are arbitrary. -/

theorem simdConst (t : Target) (E : Env α) {m : Mem α} {out n : Nat} {c : α} :
    SimdSupplies (t.vec E) t.align m out n (.scalar c) (fun _ => c) := fun _ _ => rfl

theorem scalarConst (A : Arith α) {m : Mem α} {out n : Nat} {c : α} :
    ScalarSupplies A m out n (.scalar c) (fun _ => c) := fun _ _ => rfl

theorem simdPtr (t : Target) (E : Env α) {m : Mem α} {out n p : Nat} {x : Nat → α}
    (h : t.align ∣ p ∧ Holds m p n x ∧ SafePlacement out p n) :
    SimdSupplies (t.vec E) t.align m out n (.ptr p) x := h

theorem scalarPtr (A : Arith α) {m : Mem α} {out n p : Nat} {x : Nat → α}
    (h : Holds m p n x ∧ SafePlacement out p n) : ScalarSupplies A m out n (.ptr p) x := h

section scalarArg
variable (t : Target) (E : Env α) {m : Mem α} {out p : Nat} {n : BitVec 32} {κ : α}
  (hn : 0 < n.toNat) (hmul : t.perLine ∣ n.toNat) (hoal : t.align ∣ out)
  (hout : Allocated m out n.toNat)
  (hp : t.align ∣ p ∧ Holds m p n.toNat (fun _ => κ) ∧ SafePlacement out p n.toNat)
include hn hmul hoal hout hp

theorem C12_binary_1 (op : BinOp) {b : SArg α} {y : Nat → α}
    (hb : SimdSupplies (t.vec E) t.align m out n.toNat b y) :
    op.vecSimd (t.vec E) out (.scalar κ) b n m = op.vecSimd (t.vec E) out (.ptr p) b n m := by
  rw [C02_binary_simd t E op (x := fun _ => κ) hn hmul hoal hout (simdConst t E) hb,
    C02_binary_simd t E op hn hmul hoal hout (simdPtr t E hp) hb]

theorem C12_binary_2 (op : BinOp) {a : SArg α} {x : Nat → α}
    (ha : SimdSupplies (t.vec E) t.align m out n.toNat a x) :
    op.vecSimd (t.vec E) out a (.scalar κ) n m = op.vecSimd (t.vec E) out a (.ptr p) n m := by
  rw [C02_binary_simd t E op (y := fun _ => κ) hn hmul hoal hout ha (simdConst t E),
    C02_binary_simd t E op hn hmul hoal hout ha (simdPtr t E hp)]

theorem C12_ternary_1 (op : TerOp) {b c : SArg α} {y z : Nat → α}
    (hb : SimdSupplies (t.vec E) t.align m out n.toNat b y)
    (hc : SimdSupplies (t.vec E) t.align m out n.toNat c z) :
    op.vecSimd (t.vec E) out (.scalar κ) b c n m = op.vecSimd (t.vec E) out (.ptr p) b c n m := by
  rw [C03_ternary_simd t E op (x := fun _ => κ) hn hmul hoal hout (simdConst t E) hb hc,
    C03_ternary_simd t E op hn hmul hoal hout (simdPtr t E hp) hb hc]

theorem C12_ternary_2 (op : TerOp) {a c : SArg α} {x z : Nat → α}
    (ha : SimdSupplies (t.vec E) t.align m out n.toNat a x)
    (hc : SimdSupplies (t.vec E) t.align m out n.toNat c z) :
    op.vecSimd (t.vec E) out a (.scalar κ) c n m = op.vecSimd (t.vec E) out a (.ptr p) c n m := by
  rw [C03_ternary_simd t E op (y := fun _ => κ) hn hmul hoal hout ha (simdConst t E) hc,
    C03_ternary_simd t E op hn hmul hoal hout ha (simdPtr t E hp) hc]

theorem C12_ternary_3 (op : TerOp) {a b : SArg α} {x y : Nat → α}
    (ha : SimdSupplies (t.vec E) t.align m out n.toNat a x)
    (hb : SimdSupplies (t.vec E) t.align m out n.toNat b y) :
    op.vecSimd (t.vec E) out a b (.scalar κ) n m = op.vecSimd (t.vec E) out a b (.ptr p) n m := by
  rw [C03_ternary_simd t E op (z := fun _ => κ) hn hmul hoal hout ha hb (simdConst t E),
    C03_ternary_simd t E op hn hmul hoal hout ha hb (simdPtr t E hp)]

theorem C12_quad_1 (op : QuadOp) {b c d : SArg α} {y z u : Nat → α}
    (hb : SimdSupplies (t.vec E) t.align m out n.toNat b y)
    (hc : SimdSupplies (t.vec E) t.align m out n.toNat c z)
    (hd : SimdSupplies (t.vec E) t.align m out n.toNat d u) :
    op.vecSimd (t.vec E) out (.scalar κ) b c d n m = op.vecSimd (t.vec E) out (.ptr p) b c d n m := by
  rw [C04_quad_simd t E op (x := fun _ => κ) hn hmul hoal hout (simdConst t E) hb hc hd,
    C04_quad_simd t E op hn hmul hoal hout (simdPtr t E hp) hb hc hd]

theorem C12_quad_2 (op : QuadOp) {a c d : SArg α} {x z u : Nat → α}
    (ha : SimdSupplies (t.vec E) t.align m out n.toNat a x)
    (hc : SimdSupplies (t.vec E) t.align m out n.toNat c z)
    (hd : SimdSupplies (t.vec E) t.align m out n.toNat d u) :
    op.vecSimd (t.vec E) out a (.scalar κ) c d n m = op.vecSimd (t.vec E) out a (.ptr p) c d n m := by
  rw [C04_quad_simd t E op (y := fun _ => κ) hn hmul hoal hout ha (simdConst t E) hc hd,
    C04_quad_simd t E op hn hmul hoal hout ha (simdPtr t E hp) hc hd]

theorem C12_quad_3 (op : QuadOp) {a b d : SArg α} {x y u : Nat → α}
    (ha : SimdSupplies (t.vec E) t.align m out n.toNat a x)
    (hb : SimdSupplies (t.vec E) t.align m out n.toNat b y)
    (hd : SimdSupplies (t.vec E) t.align m out n.toNat d u) :
    op.vecSimd (t.vec E) out a b (.scalar κ) d n m = op.vecSimd (t.vec E) out a b (.ptr p) d n m := by
  rw [C04_quad_simd t E op (z := fun _ => κ) hn hmul hoal hout ha hb (simdConst t E) hd,
    C04_quad_simd t E op hn hmul hoal hout ha hb (simdPtr t E hp) hd]

theorem C12_quad_4 (op : QuadOp) {a b c : SArg α} {x y z : Nat → α}
    (ha : SimdSupplies (t.vec E) t.align m out n.toNat a x)
    (hb : SimdSupplies (t.vec E) t.align m out n.toNat b y)
    (hc : SimdSupplies (t.vec E) t.align m out n.toNat c z) :
    op.vecSimd (t.vec E) out a b c (.scalar κ) n m = op.vecSimd (t.vec E) out a b c (.ptr p) n m := by
  rw [C04_quad_simd t E op (u := fun _ => κ) hn hmul hoal hout ha hb hc (simdConst t E),
    C04_quad_simd t E op hn hmul hoal hout ha hb hc (simdPtr t E hp)]

omit hmul hoal hp in
/-- The scalar function with a scalar second argument. -/
theorem C12_binary_scalarLoop (op : BinOp) {a : SArg α} {x : Nat → α}
    (hp : Holds m p n.toNat (fun _ => κ) ∧ SafePlacement out p n.toNat)
    (ha : ScalarSupplies E.S m out n.toNat a x) :
    op.vec E.S out a (.scalar κ) n m = op.vec E.S out a (.ptr p) n m ∧
    op.vec E.S out (.scalar κ) a n m = op.vec E.S out (.ptr p) a n m := by
  constructor
  · rw [C02_binary_scalar E.S op (y := fun _ => κ) hn hout ha (scalarConst E.S),
      C02_binary_scalar E.S op hn hout ha (scalarPtr E.S hp)]
  · rw [C02_binary_scalar E.S op (x := fun _ => κ) hn hout (scalarConst E.S) ha,
      C02_binary_scalar E.S op hn hout (scalarPtr E.S hp) ha]

omit hmul hoal hp in
theorem C12_ternary_scalarLoop (op : TerOp) {a b : SArg α} {x y : Nat → α}
    (hp : Holds m p n.toNat (fun _ => κ) ∧ SafePlacement out p n.toNat)
    (ha : ScalarSupplies E.S m out n.toNat a x) (hb : ScalarSupplies E.S m out n.toNat b y) :
    op.vec E.S out (.scalar κ) a b n m = op.vec E.S out (.ptr p) a b n m ∧
    op.vec E.S out a (.scalar κ) b n m = op.vec E.S out a (.ptr p) b n m ∧
    op.vec E.S out a b (.scalar κ) n m = op.vec E.S out a b (.ptr p) n m := by
  refine ⟨?_, ?_, ?_⟩
  · rw [C03_ternary_scalar E.S op (x := fun _ => κ) hn hout (scalarConst E.S) ha hb,
      C03_ternary_scalar E.S op hn hout (scalarPtr E.S hp) ha hb]
  · rw [C03_ternary_scalar E.S op (y := fun _ => κ) hn hout ha (scalarConst E.S) hb,
      C03_ternary_scalar E.S op hn hout ha (scalarPtr E.S hp) hb]
  · rw [C03_ternary_scalar E.S op (z := fun _ => κ) hn hout ha hb (scalarConst E.S),
      C03_ternary_scalar E.S op hn hout ha hb (scalarPtr E.S hp)]

omit hmul hoal hp in
theorem C12_quad_scalarLoop (op : QuadOp) {a b d : SArg α} {x y z : Nat → α}
    (hp : Holds m p n.toNat (fun _ => κ) ∧ SafePlacement out p n.toNat)
    (ha : ScalarSupplies E.S m out n.toNat a x) (hb : ScalarSupplies E.S m out n.toNat b y)
    (hd : ScalarSupplies E.S m out n.toNat d z) :
    op.vec E.S out (.scalar κ) a b d n m = op.vec E.S out (.ptr p) a b d n m ∧
    op.vec E.S out a (.scalar κ) b d n m = op.vec E.S out a (.ptr p) b d n m ∧
    op.vec E.S out a b (.scalar κ) d n m = op.vec E.S out a b (.ptr p) d n m ∧
    op.vec E.S out a b d (.scalar κ) n m = op.vec E.S out a b d (.ptr p) n m := by
  refine ⟨?_, ?_, ?_, ?_⟩
  · rw [C04_quad_scalar E.S op (x := fun _ => κ) hn hout (scalarConst E.S) ha hb hd,
      C04_quad_scalar E.S op hn hout (scalarPtr E.S hp) ha hb hd]
  · rw [C04_quad_scalar E.S op (y := fun _ => κ) hn hout ha (scalarConst E.S) hb hd,
      C04_quad_scalar E.S op hn hout ha (scalarPtr E.S hp) hb hd]
  · rw [C04_quad_scalar E.S op (z := fun _ => κ) hn hout ha hb (scalarConst E.S) hd,
      C04_quad_scalar E.S op hn hout ha hb (scalarPtr E.S hp) hd]
  · rw [C04_quad_scalar E.S op (u := fun _ => κ) hn hout ha hb hd (scalarConst E.S),
      C04_quad_scalar E.S op hn hout ha hb hd (scalarPtr E.S hp)]

end scalarArg

/-! ## The hypotheses are satisfiable -/
section examples
open Examples

example : UnOp.cube.vecSimd (Target.avxDouble.vec intEnv) 4 4 8#32 (ramp 20)
      = .ok ((), overwrite (ramp 20) 4 8 fun i => (10 * ((4 + i : Nat) : Int) - 100) *
          (10 * ((4 + i : Nat) : Int) - 100) * (10 * ((4 + i : Nat) : Int) - 100)) :=
  (C07_unary_inplace .avxDouble intEnv .cube (n := 8#32)
    (x := fun i => 10 * ((4 + i : Nat) : Int) - 100) (by decide) (by decide) (by decide)
    (by unfold Holds; decide) (fun _ _ => rfl) (fun _ _ => rfl)).1

/-- Backward overlap: output at 0, input at 4. -/
example : UnOp.abs.vecSimd ((Target.sse true true).vec intEnv) 0 4 16#32 (ramp 20)
      = .ok ((), overwrite (ramp 20) 0 16 fun i => ((10 * ((4 + i : Nat) : Int) - 100).natAbs : Int)) :=
  (C07_unary_backward (.sse true true) intEnv .abs (n := 16#32)
    (x := fun i => 10 * ((4 + i : Nat) : Int) - 100) (by decide) (by decide) (by decide) (by decide)
    (by decide) (by decide) (by unfold Allocated; decide) (by unfold Holds; decide)
    (fun _ _ => rfl) (fun _ _ => rfl)).1

example : Footprint (UnOp.abs.vecSimd ((Target.sse true true).vec intEnv) 0 4 16#32) (ramp 200)
    (fun a => bufCells 0 16 a ∨ bufCells 4 16 a) (bufCells 0 16) :=
  (C06_unary (.sse true true) intEnv .abs (n := 16#32)
    (x := fun i => 10 * ((4 + i : Nat) : Int) - 100) (by decide) (by decide) (by decide) (by decide)
    (by unfold Allocated; decide) (by unfold Holds; decide) (Or.inl (by decide))
    (fun _ _ => rfl) (fun _ _ => rfl)).1

/-- A memory in which cells 32…47 all hold 5. -/
def fives : Mem Int := fun a => if a < 32 then some a else if a < 48 then some 5 else none

example : BinOp.plus.vecSimd (Target.avxFloat.vec intEnv) 0 (.ptr 16) (.scalar 5) 16#32 fives
    = BinOp.plus.vecSimd (Target.avxFloat.vec intEnv) 0 (.ptr 16) (.ptr 32) 16#32 fives :=
  C12_binary_2 .avxFloat intEnv (by decide) (by decide) (by decide) (by unfold Allocated; decide)
    ⟨by decide, by unfold Holds; decide, Or.inl (by decide)⟩ .plus
    (x := fun i => ((16 + i : Nat) : Int))
    ⟨by decide, by unfold Holds; decide, Or.inl (by decide)⟩

end examples

end Nova
