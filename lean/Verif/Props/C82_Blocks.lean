import Verif.Lemmas.Blocks
import Verif.Props.C23_Meters
import Verif.Examples

/-!
# C82: processing a buffer in blocks

A call on a long buffer leaves the same memory as calls on consecutive pieces of it, and as calls on any
pieces of it in any order.  Audio programs rely on this: the block size is a parameter of the host.

`argFrom r o a` is the argument a caller passes for the piece that starts at element `o`.
-/

namespace Nova
open Spec
variable {α : Type}

/-! ## Two consecutive pieces

The output may overlap an input as long as it starts before it (`SafePlacement`). -/

theorem C82_unary_scalar (A : Arith α) (op : UnOp) {m : Mem α} {out inp : Nat} {n k : BitVec 32}
    {x y : Nat → α} (hn : 0 < n.toNat) (hk : 0 < k.toNat) (hnk : n.toNat + k.toNat < 2 ^ 32)
    (hout : Allocated m out (n + k).toNat) (hin : Holds m inp (n + k).toNat x)
    (hs : SafePlacement out inp (n + k).toNat)
    (hf : ∀ i, i < (n + k).toNat → op.f A (x i) = .ok (y i)) :
    (do op.vec A out inp n
        op.vec A (out + n.toNat) (inp + n.toNat) k) m = op.vec A out inp (n + k) m := by
  rw [C01_unary_scalar A op (by rw [toNat_split hnk]; omega) hout hin hs hf]
  rw [toNat_split hnk] at *
  rw [Exec.bind_ok (C01_unary_scalar A op hn (alloc_first hout) (holds_first hin) (safe_first hs)
      fun i hi => hf i (by omega)),
    C01_unary_scalar A op hk (overwrite_alloc_rest hout) (overwrite_holds hin hs) (safe_second hs)
      fun i hi => hf (n.toNat + i) (by omega), overwrite_two]

theorem C82_unary_simd (t : Target) (E : Env α) (op : UnOp) {m : Mem α} {out inp : Nat} {n k : BitVec 32}
    {x y : Nat → α} (hn : 0 < n.toNat) (hk : 0 < k.toNat) (hnk : n.toNat + k.toNat < 2 ^ 32)
    (nmul : t.perLine ∣ n.toNat) (kmul : t.perLine ∣ k.toNat) (hoal : t.align ∣ out) (hial : t.align ∣ inp)
    (hout : Allocated m out (n + k).toNat) (hin : Holds m inp (n + k).toNat x)
    (hs : SafePlacement out inp (n + k).toNat)
    (hf : ∀ i, i < (n + k).toNat → op.f E.L (x i) = .ok (y i)) :
    (do op.vecSimd (t.vec E) out inp n
        op.vecSimd (t.vec E) (out + n.toNat) (inp + n.toNat) k) m = op.vecSimd (t.vec E) out inp (n + k) m := by
  have hal : t.align ∣ n.toNat := (align_dvd_perLine t).trans nmul
  rw [C01_unary_simd t E op (by rw [toNat_split hnk]; omega)
    (by rw [toNat_split hnk]; exact Nat.dvd_add nmul kmul) hoal hial hout hin hs hf]
  rw [toNat_split hnk] at *
  rw [Exec.bind_ok (C01_unary_simd t E op hn nmul hoal hial (alloc_first hout) (holds_first hin) (safe_first hs)
      fun i hi => hf i (by omega)),
    C01_unary_simd t E op hk kmul (Nat.dvd_add hoal hal) (Nat.dvd_add hial hal) (overwrite_alloc_rest hout)
      (overwrite_holds hin hs) (safe_second hs) fun i hi => hf (n.toNat + i) (by omega), overwrite_two]

theorem C82_binary_scalar (A : Arith α) (op : BinOp) {m : Mem α} {out : Nat} {a b : SArg α}
    {n k : BitVec 32} {x y : Nat → α} (hn : 0 < n.toNat) (hk : 0 < k.toNat) (hnk : n.toNat + k.toNat < 2 ^ 32)
    (hout : Allocated m out (n + k).toNat)
    (ha : ScalarSupplies A m out (n + k).toNat a x)
    (hb : ScalarSupplies A m out (n + k).toNat b y) :
    (do op.vec A out a b n
        op.vec A (out + n.toNat) (argFrom (scalarRamp A) n.toNat a) (argFrom (scalarRamp A) n.toNat b) k) m
      = op.vec A out a b (n + k) m := by
  rw [C02_binary_scalar A op (by rw [toNat_split hnk]; omega) hout ha hb]
  rw [toNat_split hnk] at *
  rw [Exec.bind_ok (C02_binary_scalar A op hn (alloc_first hout) (scalar_first ha) (scalar_first hb)),
    C02_binary_scalar A op hk (overwrite_alloc_rest hout) (scalar_second ha) (scalar_second hb)]
  rw [← overwrite_two]

theorem split_binary (t : Target) (E : Env α) (op : BinOp) {r : α → α → Nat → α} {m : Mem α} {out : Nat}
    {a b : SArg α} {n k : BitVec 32} {x y : Nat → α} (hn : 0 < n.toNat) (hk : 0 < k.toNat)
    (hnk : n.toNat + k.toNat < 2 ^ 32) (nmul : t.perLine ∣ n.toNat) (kmul : t.perLine ∣ k.toNat)
    (hoal : t.align ∣ out) (hout : Allocated m out (n + k).toNat)
    (ha : SimdSupplies (t.vec E) t.align m out (n + k).toNat a x)
    (hb : SimdSupplies (t.vec E) t.align m out (n + k).toNat b y)
    (ca : Continues (t.vec E) r a) (cb : Continues (t.vec E) r b) :
    (do op.vecSimd (t.vec E) out a b n
        op.vecSimd (t.vec E) (out + n.toNat) (argFrom r n.toNat a) (argFrom r n.toNat b) k) m
      = op.vecSimd (t.vec E) out a b (n + k) m := by
  have hal : t.align ∣ n.toNat := (align_dvd_perLine t).trans nmul
  rw [C02_binary_simd t E op (by rw [toNat_split hnk]; omega)
    (by rw [toNat_split hnk]; exact Nat.dvd_add nmul kmul) hoal hout ha hb]
  rw [toNat_split hnk] at *
  rw [Exec.bind_ok (C02_binary_simd t E op hn nmul hoal (alloc_first hout) (simd_first ha) (simd_first hb)),
    C02_binary_simd t E op hk kmul (Nat.dvd_add hoal hal) (overwrite_alloc_rest hout)
      (simd_second hal ca ha) (simd_second hal cb hb)]
  rw [← overwrite_two]

/-- Buffers and numbers as arguments, in any arithmetic. -/
theorem C82_binary_simd (t : Target) (E : Env α) (op : BinOp) (r : α → α → Nat → α) {m : Mem α} {out : Nat}
    {a b : SArg α} {n k : BitVec 32} {x y : Nat → α} (hn : 0 < n.toNat) (hk : 0 < k.toNat)
    (hnk : n.toNat + k.toNat < 2 ^ 32) (nmul : t.perLine ∣ n.toNat) (kmul : t.perLine ∣ k.toNat)
    (hoal : t.align ∣ out) (hout : Allocated m out (n + k).toNat)
    (ha : SimdSupplies (t.vec E) t.align m out (n + k).toNat a x)
    (hb : SimdSupplies (t.vec E) t.align m out (n + k).toNat b y)
    (ca : Steady a) (cb : Steady b) :
    (do op.vecSimd (t.vec E) out a b n
        op.vecSimd (t.vec E) (out + n.toNat) (argFrom r n.toNat a) (argFrom r n.toNat b) k) m
      = op.vecSimd (t.vec E) out a b (n + k) m :=
  split_binary t E op hn hk hnk nmul kmul hoal hout ha hb (steady_continues ca) (steady_continues cb)

/-- Any arguments, in exact arithmetic: the ramp of the second piece starts at `base + n * slope`. -/
theorem C82_binary_exact [CommRing α] (t : Target) (E : Env α) (hE : E.Exact) (op : BinOp) {m : Mem α} {out : Nat}
    {a b : SArg α} {n k : BitVec 32} {x y : Nat → α} (hn : 0 < n.toNat) (hk : 0 < k.toNat)
    (hnk : n.toNat + k.toNat < 2 ^ 32) (nmul : t.perLine ∣ n.toNat) (kmul : t.perLine ∣ k.toNat)
    (hoal : t.align ∣ out) (hout : Allocated m out (n + k).toNat)
    (ha : SimdSupplies (t.vec E) t.align m out (n + k).toNat a x)
    (hb : SimdSupplies (t.vec E) t.align m out (n + k).toNat b y) :
    (do op.vecSimd (t.vec E) out a b n
        op.vecSimd (t.vec E) (out + n.toNat) (argFrom exactRamp n.toNat a) (argFrom exactRamp n.toNat b) k) m
      = op.vecSimd (t.vec E) out a b (n + k) m :=
  split_binary t E op hn hk hnk nmul kmul hoal hout ha hb (exact_continues t E hE a) (exact_continues t E hE b)

theorem C82_ternary_scalar (A : Arith α) (op : TerOp) {m : Mem α} {out : Nat} {a b c : SArg α}
    {n k : BitVec 32} {x y z : Nat → α} (hn : 0 < n.toNat) (hk : 0 < k.toNat) (hnk : n.toNat + k.toNat < 2 ^ 32)
    (hout : Allocated m out (n + k).toNat)
    (ha : ScalarSupplies A m out (n + k).toNat a x)
    (hb : ScalarSupplies A m out (n + k).toNat b y)
    (hc : ScalarSupplies A m out (n + k).toNat c z) :
    (do op.vec A out a b c n
        op.vec A (out + n.toNat) (argFrom (scalarRamp A) n.toNat a) (argFrom (scalarRamp A) n.toNat b) (argFrom (scalarRamp A) n.toNat c) k) m
      = op.vec A out a b c (n + k) m := by
  rw [C03_ternary_scalar A op (by rw [toNat_split hnk]; omega) hout ha hb hc]
  rw [toNat_split hnk] at *
  rw [Exec.bind_ok (C03_ternary_scalar A op hn (alloc_first hout) (scalar_first ha) (scalar_first hb) (scalar_first hc)),
    C03_ternary_scalar A op hk (overwrite_alloc_rest hout) (scalar_second ha) (scalar_second hb) (scalar_second hc)]
  rw [← overwrite_two]

theorem split_ternary (t : Target) (E : Env α) (op : TerOp) {r : α → α → Nat → α} {m : Mem α} {out : Nat}
    {a b c : SArg α} {n k : BitVec 32} {x y z : Nat → α} (hn : 0 < n.toNat) (hk : 0 < k.toNat)
    (hnk : n.toNat + k.toNat < 2 ^ 32) (nmul : t.perLine ∣ n.toNat) (kmul : t.perLine ∣ k.toNat)
    (hoal : t.align ∣ out) (hout : Allocated m out (n + k).toNat)
    (ha : SimdSupplies (t.vec E) t.align m out (n + k).toNat a x)
    (hb : SimdSupplies (t.vec E) t.align m out (n + k).toNat b y)
    (hc : SimdSupplies (t.vec E) t.align m out (n + k).toNat c z)
    (ca : Continues (t.vec E) r a) (cb : Continues (t.vec E) r b) (cc : Continues (t.vec E) r c) :
    (do op.vecSimd (t.vec E) out a b c n
        op.vecSimd (t.vec E) (out + n.toNat) (argFrom r n.toNat a) (argFrom r n.toNat b) (argFrom r n.toNat c) k) m
      = op.vecSimd (t.vec E) out a b c (n + k) m := by
  have hal : t.align ∣ n.toNat := (align_dvd_perLine t).trans nmul
  rw [C03_ternary_simd t E op (by rw [toNat_split hnk]; omega)
    (by rw [toNat_split hnk]; exact Nat.dvd_add nmul kmul) hoal hout ha hb hc]
  rw [toNat_split hnk] at *
  rw [Exec.bind_ok (C03_ternary_simd t E op hn nmul hoal (alloc_first hout) (simd_first ha) (simd_first hb) (simd_first hc)),
    C03_ternary_simd t E op hk kmul (Nat.dvd_add hoal hal) (overwrite_alloc_rest hout)
      (simd_second hal ca ha) (simd_second hal cb hb) (simd_second hal cc hc)]
  rw [← overwrite_two]

/-- Buffers and numbers as arguments, in any arithmetic. -/
theorem C82_ternary_simd (t : Target) (E : Env α) (op : TerOp) (r : α → α → Nat → α) {m : Mem α} {out : Nat}
    {a b c : SArg α} {n k : BitVec 32} {x y z : Nat → α} (hn : 0 < n.toNat) (hk : 0 < k.toNat)
    (hnk : n.toNat + k.toNat < 2 ^ 32) (nmul : t.perLine ∣ n.toNat) (kmul : t.perLine ∣ k.toNat)
    (hoal : t.align ∣ out) (hout : Allocated m out (n + k).toNat)
    (ha : SimdSupplies (t.vec E) t.align m out (n + k).toNat a x)
    (hb : SimdSupplies (t.vec E) t.align m out (n + k).toNat b y)
    (hc : SimdSupplies (t.vec E) t.align m out (n + k).toNat c z)
    (ca : Steady a) (cb : Steady b) (cc : Steady c) :
    (do op.vecSimd (t.vec E) out a b c n
        op.vecSimd (t.vec E) (out + n.toNat) (argFrom r n.toNat a) (argFrom r n.toNat b) (argFrom r n.toNat c) k) m
      = op.vecSimd (t.vec E) out a b c (n + k) m :=
  split_ternary t E op hn hk hnk nmul kmul hoal hout ha hb hc (steady_continues ca) (steady_continues cb) (steady_continues cc)

/-- Any arguments, in exact arithmetic: the ramp of the second piece starts at `base + n * slope`. -/
theorem C82_ternary_exact [CommRing α] (t : Target) (E : Env α) (hE : E.Exact) (op : TerOp) {m : Mem α} {out : Nat}
    {a b c : SArg α} {n k : BitVec 32} {x y z : Nat → α} (hn : 0 < n.toNat) (hk : 0 < k.toNat)
    (hnk : n.toNat + k.toNat < 2 ^ 32) (nmul : t.perLine ∣ n.toNat) (kmul : t.perLine ∣ k.toNat)
    (hoal : t.align ∣ out) (hout : Allocated m out (n + k).toNat)
    (ha : SimdSupplies (t.vec E) t.align m out (n + k).toNat a x)
    (hb : SimdSupplies (t.vec E) t.align m out (n + k).toNat b y)
    (hc : SimdSupplies (t.vec E) t.align m out (n + k).toNat c z) :
    (do op.vecSimd (t.vec E) out a b c n
        op.vecSimd (t.vec E) (out + n.toNat) (argFrom exactRamp n.toNat a) (argFrom exactRamp n.toNat b) (argFrom exactRamp n.toNat c) k) m
      = op.vecSimd (t.vec E) out a b c (n + k) m :=
  split_ternary t E op hn hk hnk nmul kmul hoal hout ha hb hc (exact_continues t E hE a) (exact_continues t E hE b) (exact_continues t E hE c)

theorem C82_quad_scalar (A : Arith α) (op : QuadOp) {m : Mem α} {out : Nat} {a b c d : SArg α}
    {n k : BitVec 32} {x y z u : Nat → α} (hn : 0 < n.toNat) (hk : 0 < k.toNat) (hnk : n.toNat + k.toNat < 2 ^ 32)
    (hout : Allocated m out (n + k).toNat)
    (ha : ScalarSupplies A m out (n + k).toNat a x)
    (hb : ScalarSupplies A m out (n + k).toNat b y)
    (hc : ScalarSupplies A m out (n + k).toNat c z)
    (hd : ScalarSupplies A m out (n + k).toNat d u) :
    (do op.vec A out a b c d n
        op.vec A (out + n.toNat) (argFrom (scalarRamp A) n.toNat a) (argFrom (scalarRamp A) n.toNat b) (argFrom (scalarRamp A) n.toNat c) (argFrom (scalarRamp A) n.toNat d) k) m
      = op.vec A out a b c d (n + k) m := by
  rw [C04_quad_scalar A op (by rw [toNat_split hnk]; omega) hout ha hb hc hd]
  rw [toNat_split hnk] at *
  rw [Exec.bind_ok (C04_quad_scalar A op hn (alloc_first hout) (scalar_first ha) (scalar_first hb) (scalar_first hc) (scalar_first hd)),
    C04_quad_scalar A op hk (overwrite_alloc_rest hout) (scalar_second ha) (scalar_second hb) (scalar_second hc) (scalar_second hd)]
  rw [← overwrite_two]

theorem split_quad (t : Target) (E : Env α) (op : QuadOp) {r : α → α → Nat → α} {m : Mem α} {out : Nat}
    {a b c d : SArg α} {n k : BitVec 32} {x y z u : Nat → α} (hn : 0 < n.toNat) (hk : 0 < k.toNat)
    (hnk : n.toNat + k.toNat < 2 ^ 32) (nmul : t.perLine ∣ n.toNat) (kmul : t.perLine ∣ k.toNat)
    (hoal : t.align ∣ out) (hout : Allocated m out (n + k).toNat)
    (ha : SimdSupplies (t.vec E) t.align m out (n + k).toNat a x)
    (hb : SimdSupplies (t.vec E) t.align m out (n + k).toNat b y)
    (hc : SimdSupplies (t.vec E) t.align m out (n + k).toNat c z)
    (hd : SimdSupplies (t.vec E) t.align m out (n + k).toNat d u)
    (ca : Continues (t.vec E) r a) (cb : Continues (t.vec E) r b) (cc : Continues (t.vec E) r c) (cd : Continues (t.vec E) r d) :
    (do op.vecSimd (t.vec E) out a b c d n
        op.vecSimd (t.vec E) (out + n.toNat) (argFrom r n.toNat a) (argFrom r n.toNat b) (argFrom r n.toNat c) (argFrom r n.toNat d) k) m
      = op.vecSimd (t.vec E) out a b c d (n + k) m := by
  have hal : t.align ∣ n.toNat := (align_dvd_perLine t).trans nmul
  rw [C04_quad_simd t E op (by rw [toNat_split hnk]; omega)
    (by rw [toNat_split hnk]; exact Nat.dvd_add nmul kmul) hoal hout ha hb hc hd]
  rw [toNat_split hnk] at *
  rw [Exec.bind_ok (C04_quad_simd t E op hn nmul hoal (alloc_first hout) (simd_first ha) (simd_first hb) (simd_first hc) (simd_first hd)),
    C04_quad_simd t E op hk kmul (Nat.dvd_add hoal hal) (overwrite_alloc_rest hout)
      (simd_second hal ca ha) (simd_second hal cb hb) (simd_second hal cc hc) (simd_second hal cd hd)]
  rw [← overwrite_two]

/-- Buffers and numbers as arguments, in any arithmetic. -/
theorem C82_quad_simd (t : Target) (E : Env α) (op : QuadOp) (r : α → α → Nat → α) {m : Mem α} {out : Nat}
    {a b c d : SArg α} {n k : BitVec 32} {x y z u : Nat → α} (hn : 0 < n.toNat) (hk : 0 < k.toNat)
    (hnk : n.toNat + k.toNat < 2 ^ 32) (nmul : t.perLine ∣ n.toNat) (kmul : t.perLine ∣ k.toNat)
    (hoal : t.align ∣ out) (hout : Allocated m out (n + k).toNat)
    (ha : SimdSupplies (t.vec E) t.align m out (n + k).toNat a x)
    (hb : SimdSupplies (t.vec E) t.align m out (n + k).toNat b y)
    (hc : SimdSupplies (t.vec E) t.align m out (n + k).toNat c z)
    (hd : SimdSupplies (t.vec E) t.align m out (n + k).toNat d u)
    (ca : Steady a) (cb : Steady b) (cc : Steady c) (cd : Steady d) :
    (do op.vecSimd (t.vec E) out a b c d n
        op.vecSimd (t.vec E) (out + n.toNat) (argFrom r n.toNat a) (argFrom r n.toNat b) (argFrom r n.toNat c) (argFrom r n.toNat d) k) m
      = op.vecSimd (t.vec E) out a b c d (n + k) m :=
  split_quad t E op hn hk hnk nmul kmul hoal hout ha hb hc hd (steady_continues ca) (steady_continues cb) (steady_continues cc) (steady_continues cd)

/-- Any arguments, in exact arithmetic: the ramp of the second piece starts at `base + n * slope`. -/
theorem C82_quad_exact [CommRing α] (t : Target) (E : Env α) (hE : E.Exact) (op : QuadOp) {m : Mem α} {out : Nat}
    {a b c d : SArg α} {n k : BitVec 32} {x y z u : Nat → α} (hn : 0 < n.toNat) (hk : 0 < k.toNat)
    (hnk : n.toNat + k.toNat < 2 ^ 32) (nmul : t.perLine ∣ n.toNat) (kmul : t.perLine ∣ k.toNat)
    (hoal : t.align ∣ out) (hout : Allocated m out (n + k).toNat)
    (ha : SimdSupplies (t.vec E) t.align m out (n + k).toNat a x)
    (hb : SimdSupplies (t.vec E) t.align m out (n + k).toNat b y)
    (hc : SimdSupplies (t.vec E) t.align m out (n + k).toNat c z)
    (hd : SimdSupplies (t.vec E) t.align m out (n + k).toNat d u) :
    (do op.vecSimd (t.vec E) out a b c d n
        op.vecSimd (t.vec E) (out + n.toNat) (argFrom exactRamp n.toNat a) (argFrom exactRamp n.toNat b) (argFrom exactRamp n.toNat c) (argFrom exactRamp n.toNat d) k) m
      = op.vecSimd (t.vec E) out a b c d (n + k) m :=
  split_quad t E op hn hk hnk nmul kmul hoal hout ha hb hc hd (exact_continues t E hE a) (exact_continues t E hE b) (exact_continues t E hE c) (exact_continues t E hE d)

/-! ## Any pieces in any order

Every input buffer is the output buffer or does not overlap it (`Apart`); `Cuts bs n` says that the pieces
`bs` make up the buffer, without fixing their order. -/

theorem C82_order_unary_scalar (A : Arith α) (op : UnOp) {m : Mem α} {out inp : Nat} {n : BitVec 32}
    {bs : List Block} {x y : Nat → α} (hn : 0 < n.toNat) (hcut : Cuts bs n.toNat)
    (hout : Allocated m out n.toNat) (hin : Holds m inp n.toNat x)
    (hs : inp = out ∨ inp + n.toNat ≤ out ∨ out + n.toNat ≤ inp)
    (hf : ∀ i, i < n.toNat → op.f A (x i) = .ok (y i)) :
    inOrder (fun o k => op.vec A (out + o) (inp + o) k) bs m = op.vec A out inp n m := by
  rw [C01_unary_scalar A op hn hout hin (by unfold SafePlacement; omega) hf]
  refine inOrder_ok hcut fun b h m' ag => ?_
  have hi := hcut.inside b h
  exact C01_unary_scalar A op (hcut.nonempty b h) (ag.alloc hi hout) (ag.holds hi hin hs) (safe_block hi hs)
    fun i hi' => hf _ (by omega)

theorem C82_order_unary_simd (t : Target) (E : Env α) (op : UnOp) {m : Mem α} {out inp : Nat} {n : BitVec 32}
    {bs : List Block} {x y : Nat → α} (hn : 0 < n.toNat) (hmul : t.perLine ∣ n.toNat) (hcut : Cuts bs n.toNat)
    (hbm : ∀ b ∈ bs, t.perLine ∣ b.1 ∧ t.perLine ∣ b.2.toNat) (hoal : t.align ∣ out) (hial : t.align ∣ inp)
    (hout : Allocated m out n.toNat) (hin : Holds m inp n.toNat x)
    (hs : inp = out ∨ inp + n.toNat ≤ out ∨ out + n.toNat ≤ inp)
    (hf : ∀ i, i < n.toNat → op.f E.L (x i) = .ok (y i)) :
    inOrder (fun o k => op.vecSimd (t.vec E) (out + o) (inp + o) k) bs m = op.vecSimd (t.vec E) out inp n m := by
  rw [C01_unary_simd t E op hn hmul hoal hial hout hin (by unfold SafePlacement; omega) hf]
  refine inOrder_ok hcut fun b h m' ag => ?_
  have hi := hcut.inside b h
  have hal : t.align ∣ b.1 := (align_dvd_perLine t).trans (hbm b h).1
  exact C01_unary_simd t E op (hcut.nonempty b h) (hbm b h).2 (Nat.dvd_add hoal hal) (Nat.dvd_add hial hal)
    (ag.alloc hi hout) (ag.holds hi hin hs) (safe_block hi hs) fun i hi' => hf _ (by omega)

theorem C82_order_binary_scalar (A : Arith α) (op : BinOp) {m : Mem α} {out : Nat} {a b : SArg α}
    {n : BitVec 32} {bs : List Block} {x y : Nat → α} (hn : 0 < n.toNat) (hcut : Cuts bs n.toNat)
    (hout : Allocated m out n.toNat)
    (ha : ScalarSupplies A m out n.toNat a x)
    (hb : ScalarSupplies A m out n.toNat b y)
    (pa : Apart out n.toNat a) (pb : Apart out n.toNat b) :
    inOrder (fun o k => op.vec A (out + o) (argFrom (scalarRamp A) o a) (argFrom (scalarRamp A) o b) k) bs m
      = op.vec A out a b n m := by
  rw [C02_binary_scalar A op hn hout ha hb]
  refine inOrder_ok hcut fun b h m' ag => ?_
  have hi := hcut.inside b h
  exact C02_binary_scalar A op (hcut.nonempty b h) (ag.alloc hi hout) (ag.scalar hi ha pa) (ag.scalar hi hb pb)

theorem order_binary (t : Target) (E : Env α) (op : BinOp) {r : α → α → Nat → α} {m : Mem α} {out : Nat}
    {a b : SArg α} {n : BitVec 32} {bs : List Block} {x y : Nat → α} (hn : 0 < n.toNat)
    (hmul : t.perLine ∣ n.toNat) (hcut : Cuts bs n.toNat) (hbm : ∀ b ∈ bs, t.perLine ∣ b.1 ∧ t.perLine ∣ b.2.toNat)
    (hoal : t.align ∣ out) (hout : Allocated m out n.toNat)
    (ha : SimdSupplies (t.vec E) t.align m out n.toNat a x)
    (hb : SimdSupplies (t.vec E) t.align m out n.toNat b y)
    (pa : Apart out n.toNat a) (pb : Apart out n.toNat b)
    (ca : Continues (t.vec E) r a) (cb : Continues (t.vec E) r b) :
    inOrder (fun o k => op.vecSimd (t.vec E) (out + o) (argFrom r o a) (argFrom r o b) k) bs m
      = op.vecSimd (t.vec E) out a b n m := by
  rw [C02_binary_simd t E op hn hmul hoal hout ha hb]
  refine inOrder_ok hcut fun b h m' ag => ?_
  have hi := hcut.inside b h
  have hal : t.align ∣ b.1 := (align_dvd_perLine t).trans (hbm b h).1
  exact C02_binary_simd t E op (hcut.nonempty b h) (hbm b h).2 (Nat.dvd_add hoal hal) (ag.alloc hi hout)
    (ag.simd hi hal ha pa ca) (ag.simd hi hal hb pb cb)

/-- Buffers and numbers as arguments, in any arithmetic. -/
theorem C82_order_binary_simd (t : Target) (E : Env α) (op : BinOp) (r : α → α → Nat → α) {m : Mem α} {out : Nat}
    {a b : SArg α} {n : BitVec 32} {bs : List Block} {x y : Nat → α} (hn : 0 < n.toNat)
    (hmul : t.perLine ∣ n.toNat) (hcut : Cuts bs n.toNat) (hbm : ∀ b ∈ bs, t.perLine ∣ b.1 ∧ t.perLine ∣ b.2.toNat)
    (hoal : t.align ∣ out) (hout : Allocated m out n.toNat)
    (ha : SimdSupplies (t.vec E) t.align m out n.toNat a x)
    (hb : SimdSupplies (t.vec E) t.align m out n.toNat b y)
    (pa : Apart out n.toNat a) (pb : Apart out n.toNat b)
    (ca : Steady a) (cb : Steady b) :
    inOrder (fun o k => op.vecSimd (t.vec E) (out + o) (argFrom r o a) (argFrom r o b) k) bs m
      = op.vecSimd (t.vec E) out a b n m :=
  order_binary t E op hn hmul hcut hbm hoal hout ha hb pa pb (steady_continues ca) (steady_continues cb)

/-- Any arguments, in exact arithmetic. -/
theorem C82_order_binary_exact [CommRing α] (t : Target) (E : Env α) (hE : E.Exact) (op : BinOp) {m : Mem α} {out : Nat}
    {a b : SArg α} {n : BitVec 32} {bs : List Block} {x y : Nat → α} (hn : 0 < n.toNat)
    (hmul : t.perLine ∣ n.toNat) (hcut : Cuts bs n.toNat) (hbm : ∀ b ∈ bs, t.perLine ∣ b.1 ∧ t.perLine ∣ b.2.toNat)
    (hoal : t.align ∣ out) (hout : Allocated m out n.toNat)
    (ha : SimdSupplies (t.vec E) t.align m out n.toNat a x)
    (hb : SimdSupplies (t.vec E) t.align m out n.toNat b y)
    (pa : Apart out n.toNat a) (pb : Apart out n.toNat b) :
    inOrder (fun o k => op.vecSimd (t.vec E) (out + o) (argFrom exactRamp o a) (argFrom exactRamp o b) k) bs m
      = op.vecSimd (t.vec E) out a b n m :=
  order_binary t E op hn hmul hcut hbm hoal hout ha hb pa pb (exact_continues t E hE a) (exact_continues t E hE b)

theorem C82_order_ternary_scalar (A : Arith α) (op : TerOp) {m : Mem α} {out : Nat} {a b c : SArg α}
    {n : BitVec 32} {bs : List Block} {x y z : Nat → α} (hn : 0 < n.toNat) (hcut : Cuts bs n.toNat)
    (hout : Allocated m out n.toNat)
    (ha : ScalarSupplies A m out n.toNat a x)
    (hb : ScalarSupplies A m out n.toNat b y)
    (hc : ScalarSupplies A m out n.toNat c z)
    (pa : Apart out n.toNat a) (pb : Apart out n.toNat b) (pc : Apart out n.toNat c) :
    inOrder (fun o k => op.vec A (out + o) (argFrom (scalarRamp A) o a) (argFrom (scalarRamp A) o b) (argFrom (scalarRamp A) o c) k) bs m
      = op.vec A out a b c n m := by
  rw [C03_ternary_scalar A op hn hout ha hb hc]
  refine inOrder_ok hcut fun b h m' ag => ?_
  have hi := hcut.inside b h
  exact C03_ternary_scalar A op (hcut.nonempty b h) (ag.alloc hi hout) (ag.scalar hi ha pa) (ag.scalar hi hb pb) (ag.scalar hi hc pc)

theorem order_ternary (t : Target) (E : Env α) (op : TerOp) {r : α → α → Nat → α} {m : Mem α} {out : Nat}
    {a b c : SArg α} {n : BitVec 32} {bs : List Block} {x y z : Nat → α} (hn : 0 < n.toNat)
    (hmul : t.perLine ∣ n.toNat) (hcut : Cuts bs n.toNat) (hbm : ∀ b ∈ bs, t.perLine ∣ b.1 ∧ t.perLine ∣ b.2.toNat)
    (hoal : t.align ∣ out) (hout : Allocated m out n.toNat)
    (ha : SimdSupplies (t.vec E) t.align m out n.toNat a x)
    (hb : SimdSupplies (t.vec E) t.align m out n.toNat b y)
    (hc : SimdSupplies (t.vec E) t.align m out n.toNat c z)
    (pa : Apart out n.toNat a) (pb : Apart out n.toNat b) (pc : Apart out n.toNat c)
    (ca : Continues (t.vec E) r a) (cb : Continues (t.vec E) r b) (cc : Continues (t.vec E) r c) :
    inOrder (fun o k => op.vecSimd (t.vec E) (out + o) (argFrom r o a) (argFrom r o b) (argFrom r o c) k) bs m
      = op.vecSimd (t.vec E) out a b c n m := by
  rw [C03_ternary_simd t E op hn hmul hoal hout ha hb hc]
  refine inOrder_ok hcut fun b h m' ag => ?_
  have hi := hcut.inside b h
  have hal : t.align ∣ b.1 := (align_dvd_perLine t).trans (hbm b h).1
  exact C03_ternary_simd t E op (hcut.nonempty b h) (hbm b h).2 (Nat.dvd_add hoal hal) (ag.alloc hi hout)
    (ag.simd hi hal ha pa ca) (ag.simd hi hal hb pb cb) (ag.simd hi hal hc pc cc)

/-- Buffers and numbers as arguments, in any arithmetic. -/
theorem C82_order_ternary_simd (t : Target) (E : Env α) (op : TerOp) (r : α → α → Nat → α) {m : Mem α} {out : Nat}
    {a b c : SArg α} {n : BitVec 32} {bs : List Block} {x y z : Nat → α} (hn : 0 < n.toNat)
    (hmul : t.perLine ∣ n.toNat) (hcut : Cuts bs n.toNat) (hbm : ∀ b ∈ bs, t.perLine ∣ b.1 ∧ t.perLine ∣ b.2.toNat)
    (hoal : t.align ∣ out) (hout : Allocated m out n.toNat)
    (ha : SimdSupplies (t.vec E) t.align m out n.toNat a x)
    (hb : SimdSupplies (t.vec E) t.align m out n.toNat b y)
    (hc : SimdSupplies (t.vec E) t.align m out n.toNat c z)
    (pa : Apart out n.toNat a) (pb : Apart out n.toNat b) (pc : Apart out n.toNat c)
    (ca : Steady a) (cb : Steady b) (cc : Steady c) :
    inOrder (fun o k => op.vecSimd (t.vec E) (out + o) (argFrom r o a) (argFrom r o b) (argFrom r o c) k) bs m
      = op.vecSimd (t.vec E) out a b c n m :=
  order_ternary t E op hn hmul hcut hbm hoal hout ha hb hc pa pb pc (steady_continues ca) (steady_continues cb) (steady_continues cc)

/-- Any arguments, in exact arithmetic. -/
theorem C82_order_ternary_exact [CommRing α] (t : Target) (E : Env α) (hE : E.Exact) (op : TerOp) {m : Mem α} {out : Nat}
    {a b c : SArg α} {n : BitVec 32} {bs : List Block} {x y z : Nat → α} (hn : 0 < n.toNat)
    (hmul : t.perLine ∣ n.toNat) (hcut : Cuts bs n.toNat) (hbm : ∀ b ∈ bs, t.perLine ∣ b.1 ∧ t.perLine ∣ b.2.toNat)
    (hoal : t.align ∣ out) (hout : Allocated m out n.toNat)
    (ha : SimdSupplies (t.vec E) t.align m out n.toNat a x)
    (hb : SimdSupplies (t.vec E) t.align m out n.toNat b y)
    (hc : SimdSupplies (t.vec E) t.align m out n.toNat c z)
    (pa : Apart out n.toNat a) (pb : Apart out n.toNat b) (pc : Apart out n.toNat c) :
    inOrder (fun o k => op.vecSimd (t.vec E) (out + o) (argFrom exactRamp o a) (argFrom exactRamp o b) (argFrom exactRamp o c) k) bs m
      = op.vecSimd (t.vec E) out a b c n m :=
  order_ternary t E op hn hmul hcut hbm hoal hout ha hb hc pa pb pc (exact_continues t E hE a) (exact_continues t E hE b) (exact_continues t E hE c)

theorem C82_order_quad_scalar (A : Arith α) (op : QuadOp) {m : Mem α} {out : Nat} {a b c d : SArg α}
    {n : BitVec 32} {bs : List Block} {x y z u : Nat → α} (hn : 0 < n.toNat) (hcut : Cuts bs n.toNat)
    (hout : Allocated m out n.toNat)
    (ha : ScalarSupplies A m out n.toNat a x)
    (hb : ScalarSupplies A m out n.toNat b y)
    (hc : ScalarSupplies A m out n.toNat c z)
    (hd : ScalarSupplies A m out n.toNat d u)
    (pa : Apart out n.toNat a) (pb : Apart out n.toNat b) (pc : Apart out n.toNat c) (pd : Apart out n.toNat d) :
    inOrder (fun o k => op.vec A (out + o) (argFrom (scalarRamp A) o a) (argFrom (scalarRamp A) o b) (argFrom (scalarRamp A) o c) (argFrom (scalarRamp A) o d) k) bs m
      = op.vec A out a b c d n m := by
  rw [C04_quad_scalar A op hn hout ha hb hc hd]
  refine inOrder_ok hcut fun b h m' ag => ?_
  have hi := hcut.inside b h
  exact C04_quad_scalar A op (hcut.nonempty b h) (ag.alloc hi hout) (ag.scalar hi ha pa) (ag.scalar hi hb pb) (ag.scalar hi hc pc) (ag.scalar hi hd pd)

theorem order_quad (t : Target) (E : Env α) (op : QuadOp) {r : α → α → Nat → α} {m : Mem α} {out : Nat}
    {a b c d : SArg α} {n : BitVec 32} {bs : List Block} {x y z u : Nat → α} (hn : 0 < n.toNat)
    (hmul : t.perLine ∣ n.toNat) (hcut : Cuts bs n.toNat) (hbm : ∀ b ∈ bs, t.perLine ∣ b.1 ∧ t.perLine ∣ b.2.toNat)
    (hoal : t.align ∣ out) (hout : Allocated m out n.toNat)
    (ha : SimdSupplies (t.vec E) t.align m out n.toNat a x)
    (hb : SimdSupplies (t.vec E) t.align m out n.toNat b y)
    (hc : SimdSupplies (t.vec E) t.align m out n.toNat c z)
    (hd : SimdSupplies (t.vec E) t.align m out n.toNat d u)
    (pa : Apart out n.toNat a) (pb : Apart out n.toNat b) (pc : Apart out n.toNat c) (pd : Apart out n.toNat d)
    (ca : Continues (t.vec E) r a) (cb : Continues (t.vec E) r b) (cc : Continues (t.vec E) r c) (cd : Continues (t.vec E) r d) :
    inOrder (fun o k => op.vecSimd (t.vec E) (out + o) (argFrom r o a) (argFrom r o b) (argFrom r o c) (argFrom r o d) k) bs m
      = op.vecSimd (t.vec E) out a b c d n m := by
  rw [C04_quad_simd t E op hn hmul hoal hout ha hb hc hd]
  refine inOrder_ok hcut fun b h m' ag => ?_
  have hi := hcut.inside b h
  have hal : t.align ∣ b.1 := (align_dvd_perLine t).trans (hbm b h).1
  exact C04_quad_simd t E op (hcut.nonempty b h) (hbm b h).2 (Nat.dvd_add hoal hal) (ag.alloc hi hout)
    (ag.simd hi hal ha pa ca) (ag.simd hi hal hb pb cb) (ag.simd hi hal hc pc cc) (ag.simd hi hal hd pd cd)

/-- Buffers and numbers as arguments, in any arithmetic. -/
theorem C82_order_quad_simd (t : Target) (E : Env α) (op : QuadOp) (r : α → α → Nat → α) {m : Mem α} {out : Nat}
    {a b c d : SArg α} {n : BitVec 32} {bs : List Block} {x y z u : Nat → α} (hn : 0 < n.toNat)
    (hmul : t.perLine ∣ n.toNat) (hcut : Cuts bs n.toNat) (hbm : ∀ b ∈ bs, t.perLine ∣ b.1 ∧ t.perLine ∣ b.2.toNat)
    (hoal : t.align ∣ out) (hout : Allocated m out n.toNat)
    (ha : SimdSupplies (t.vec E) t.align m out n.toNat a x)
    (hb : SimdSupplies (t.vec E) t.align m out n.toNat b y)
    (hc : SimdSupplies (t.vec E) t.align m out n.toNat c z)
    (hd : SimdSupplies (t.vec E) t.align m out n.toNat d u)
    (pa : Apart out n.toNat a) (pb : Apart out n.toNat b) (pc : Apart out n.toNat c) (pd : Apart out n.toNat d)
    (ca : Steady a) (cb : Steady b) (cc : Steady c) (cd : Steady d) :
    inOrder (fun o k => op.vecSimd (t.vec E) (out + o) (argFrom r o a) (argFrom r o b) (argFrom r o c) (argFrom r o d) k) bs m
      = op.vecSimd (t.vec E) out a b c d n m :=
  order_quad t E op hn hmul hcut hbm hoal hout ha hb hc hd pa pb pc pd (steady_continues ca) (steady_continues cb) (steady_continues cc) (steady_continues cd)

/-- Any arguments, in exact arithmetic. -/
theorem C82_order_quad_exact [CommRing α] (t : Target) (E : Env α) (hE : E.Exact) (op : QuadOp) {m : Mem α} {out : Nat}
    {a b c d : SArg α} {n : BitVec 32} {bs : List Block} {x y z u : Nat → α} (hn : 0 < n.toNat)
    (hmul : t.perLine ∣ n.toNat) (hcut : Cuts bs n.toNat) (hbm : ∀ b ∈ bs, t.perLine ∣ b.1 ∧ t.perLine ∣ b.2.toNat)
    (hoal : t.align ∣ out) (hout : Allocated m out n.toNat)
    (ha : SimdSupplies (t.vec E) t.align m out n.toNat a x)
    (hb : SimdSupplies (t.vec E) t.align m out n.toNat b y)
    (hc : SimdSupplies (t.vec E) t.align m out n.toNat c z)
    (hd : SimdSupplies (t.vec E) t.align m out n.toNat d u)
    (pa : Apart out n.toNat a) (pb : Apart out n.toNat b) (pc : Apart out n.toNat c) (pd : Apart out n.toNat d) :
    inOrder (fun o k => op.vecSimd (t.vec E) (out + o) (argFrom exactRamp o a) (argFrom exactRamp o b) (argFrom exactRamp o c) (argFrom exactRamp o d) k) bs m
      = op.vecSimd (t.vec E) out a b c d n m :=
  order_quad t E op hn hmul hcut hbm hoal hout ha hb hc hd pa pb pc pd (exact_continues t E hE a) (exact_continues t E hE b) (exact_continues t E hE c) (exact_continues t E hE d)

/-! ## Meters -/

theorem foldSeq_more {σ β : Type} (f : σ → β → σ) (s : σ) (x : Nat → β) (n k : Nat) :
    foldSeq f (foldSeq f s x n) (fun i => x (n + i)) k = foldSeq f s x (n + k) := by
  induction k with
  | zero => rfl
  | succ k ih =>
    show f (foldSeq f (foldSeq f s x n) (fun i => x (n + i)) k) (x (n + k)) = f (foldSeq f s x (n + k)) (x (n + k))
    rw [ih]

theorem peakVec_run (E : Env α) {m : Mem α} {inp peak : Nat} {n : BitVec 32} {x : Nat → α} {p0 : α}
    (hn : 0 < n.toNat) (hx : Holds m inp n.toNat x) (hp : m peak = some p0) :
    peakVec E inp peak n m = .ok (E.S.abs (x (n.toNat - 1)), overwrite m peak 1
      (fun _ => foldSeq (Neon.stdMax E.S) p0 (fun i => E.S.abs (x i)) n.toNat)) := by
  have hs : (m peak).isSome := by rw [hp]; rfl
  unfold peakVec
  rw [Exec.bind_ok (read_ok hp)]
  refine (Exec.bind_ok (peakLoop_ok E p0 hn hx)).trans ?_
  exact (Exec.bind_ok (write_one hs)).trans rfl

theorem holds_after_cell {m : Mem α} {p n c : Nat} {x y : Nat → α} (h : Holds m p n x)
    (hc : c < p ∨ p + n ≤ c) : Holds (overwrite m c 1 y) p n x := by
  intro i hi
  unfold overwrite
  rw [if_neg (by omega)]
  exact h i hi

theorem overwrite_cell {m : Mem α} {c : Nat} {y : Nat → α} : overwrite m c 1 y c = some (y 0) := by
  unfold overwrite
  rw [if_pos ⟨Nat.le_refl _, by omega⟩, Nat.sub_self]

theorem overwrite_twice {m : Mem α} {c : Nat} {y z : Nat → α} :
    overwrite (overwrite m c 1 y) c 1 z = overwrite m c 1 z := by
  funext a
  unfold overwrite
  by_cases h : c ≤ a ∧ a < c + 1
  · rw [if_pos h, if_pos h]
  · rw [if_neg h, if_neg h, if_neg h]

/-- The peak meter keeps its state in `*peak`: metering two consecutive blocks is metering both at once, in
any arithmetic (so also bit for bit on floating point numbers, NaNs included). -/
theorem C82_peak (E : Env α) {m : Mem α} {inp peak : Nat} {n k : BitVec 32} {x : Nat → α} {p0 : α}
    (hn : 0 < n.toNat) (hk : 0 < k.toNat) (hnk : n.toNat + k.toNat < 2 ^ 32)
    (hx : Holds m inp (n + k).toNat x) (hp : m peak = some p0)
    (hc : peak < inp + n.toNat ∨ inp + (n + k).toNat ≤ peak) :
    (do let _ ← peakVec E inp peak n
        peakVec E (inp + n.toNat) peak k) m = peakVec E inp peak (n + k) m := by
  rw [peakVec_run E (by rw [toNat_split hnk]; omega) hx hp]
  rw [toNat_split hnk] at *
  rw [Exec.bind_ok (peakVec_run E hn (holds_first hx) hp),
    peakVec_run E hk (x := fun i => x (n.toNat + i)) (holds_after_cell (fun i hi => by
      rw [Nat.add_assoc]; exact hx _ (by omega)) (by omega)) overwrite_cell, overwrite_twice]
  show Except.ok (E.S.abs (x (n.toNat + (k.toNat - 1))), _) = _
  rw [show n.toNat + (k.toNat - 1) = n.toNat + k.toNat - 1 by omega]
  exact congrArg (fun v => Except.ok (E.S.abs (x (n.toNat + k.toNat - 1)), overwrite m peak 1 fun _ => v))
    (foldSeq_more (Neon.stdMax E.S) p0 (fun i => E.S.abs (x i)) n.toNat k.toNat)

/-- The same for `peak_vec_simd`, in exact arithmetic and on every back end but AVX (whose `load_first` leaves
garbage in the register, C26). -/
theorem C82_peak_simd [LinearOrder α] [CommRing α] [IsStrictOrderedRing α] (t : Target)
    (ht : t ≠ .avxFloat ∧ t ≠ .avxDouble) (E : Env α) (hX : E.Exact) (hE : E.Ordered) (hA : E.ExactAbs)
    {m : Mem α} {inp peak : Nat} {n k : BitVec 32} {x : Nat → α} {p0 : α} (hn : 0 < n.toNat) (hk : 0 < k.toNat)
    (hnk : n.toNat + k.toNat < 2 ^ 32) (nmul : 4 * t.size ∣ n.toNat) (kmul : 4 * t.size ∣ k.toNat)
    (hal : t.align ∣ inp) (hx : Holds m inp (n + k).toNat x) (hp : m peak = some p0)
    (hc : peak < inp + n.toNat ∨ inp + (n + k).toNat ≤ peak) :
    (do let _ ← peakVecSimd (t.vec E) inp peak n
        peakVecSimd (t.vec E) (inp + n.toNat) peak k) m = peakVecSimd (t.vec E) inp peak (n + k) m := by
  have hsz : t.align ∣ t.size := by rw [← t.vec_size E]; exact (t.lawful E).al_dvd
  have hal' : t.align ∣ n.toNat := hsz.trans ((Dvd.intro_left 4 rfl).trans nmul)
  rw [C24_equal_partial t ht E hX hE hA (by rw [toNat_split hnk]; omega)
    (by rw [toNat_split hnk]; exact Nat.dvd_add nmul kmul) hal hx hp, ← C82_peak E hn hk hnk hx hp hc]
  rw [toNat_split hnk] at hx hc
  have e := C24_equal_partial t ht E hX hE hA hn nmul hal (holds_first hx) hp
  rw [peakVec_run E hn (holds_first hx) hp] at e
  rw [Exec.bind_ok e, Exec.bind_ok (peakVec_run E hn (holds_first hx) hp)]
  exact C24_equal_partial t ht E hX hE hA hk kmul (Nat.dvd_add hal hal') (x := fun i => x (n.toNat + i))
    (holds_after_cell (fun i hi => by rw [Nat.add_assoc]; exact hx _ (by omega)) (by omega)) overwrite_cell

/-! ## The hypotheses are satisfiable -/
section examples
open Examples

/-- 32 elements in pieces of 8, 16 and 8, processed last piece first. -/
example : inOrder (fun o k => BinOp.plus.vecSimd (Target.sse2.vec intEnv) (0 + o) (argFrom (fun b _ _ => b) o (.ptr 0))
      (argFrom (fun b _ _ => b) o (.scalar 7)) k) [(24, 8#32), (8, 16#32), (0, 8#32)] (ramp 32)
    = BinOp.plus.vecSimd (Target.sse2.vec intEnv) 0 (.ptr 0) (.scalar 7) 32#32 (ramp 32) :=
  C82_order_binary_simd .sse2 intEnv .plus _ (x := fun i => 10 * (i : Int) - 100) (y := fun _ => 7)
    (by decide) (by decide)
    ⟨by decide, by decide, by
      refine List.pairwise_cons.mpr ⟨fun c hc i h1 h2 => ?_, List.pairwise_cons.mpr ⟨fun c hc i h1 h2 => ?_,
        List.pairwise_cons.mpr ⟨fun c hc => absurd hc List.not_mem_nil, List.Pairwise.nil⟩⟩⟩
      · have e : (8#32).toNat = 8 ∧ (16#32).toNat = 16 := ⟨rfl, rfl⟩
        simp only [List.mem_cons, List.not_mem_nil, or_false] at hc
        rcases hc with rfl | rfl <;> simp only [Block.Has, e] at h1 h2 <;> omega
      · have e : (8#32).toNat = 8 ∧ (16#32).toNat = 16 := ⟨rfl, rfl⟩
        simp only [List.mem_cons, List.not_mem_nil, or_false] at hc
        subst hc
        simp only [Block.Has, e] at h1 h2
        omega,
      fun i hi => by
        have hi : i < 32 := hi
        by_cases h1 : i < 8
        · exact ⟨(0, 8#32), by simp, Nat.zero_le _, by simpa using h1⟩
        · by_cases h2 : i < 24
          · exact ⟨(8, 16#32), by simp, by simpa using Nat.le_of_not_lt h1, by simpa using h2⟩
          · exact ⟨(24, 8#32), by simp, by simpa using Nat.le_of_not_lt h2, by simpa using hi⟩⟩
    (by decide) (by decide) (by unfold Allocated; decide)
    ⟨by decide, by unfold Holds; decide, Or.inl (by decide)⟩ (fun _ _ => rfl) (Or.inl rfl) trivial trivial trivial

/-- A ramp continues in the second piece. -/
example : (do BinOp.times.vec intArith 0 (.ptr 0) (.ramp 3 2) 5#32
              BinOp.times.vec intArith 5 (.ptr 5) (.ramp 13 2) 4#32) (ramp 9)
    = BinOp.times.vec intArith 0 (.ptr 0) (.ramp 3 2) 9#32 (ramp 9) :=
  C82_binary_scalar intArith .times (n := 5#32) (k := 4#32) (x := fun i => 10 * (i : Int) - 100)
    (y := scalarRamp intArith 3 2) (by decide) (by decide) (by decide) (by unfold Allocated; decide)
    ⟨by unfold Holds; decide, Or.inl (by decide)⟩ (fun _ _ => rfl)

end examples

end Nova
