import Verif.Lemmas.AccessesMore
import Verif.Props.C82_Blocks
import Verif.Props.C83_OtherCalls

/-!
# C82 and C83 for the fill, copy and accumulate functions

One call per block, in any order (`C82_order_…`) or in different threads (`C83_…`), leaves the memory of the
single call on the whole buffer.
-/

namespace Nova
open Spec
variable {α : Type}

theorem C82_order_zerovec (E : Env α) {out : Nat} {m : Mem α}
    {n : BitVec 32} {bs : List Block}  (hcut : Cuts bs n.toNat)
    (hout : Allocated m out n.toNat) :
    inOrder (fun o k => zerovec E (out + o) k) bs m = zerovec E out n m := by
  rw [C15_zerovec E hout]
  refine inOrder_ok hcut fun b h m' ag => ?_
  have hi := hcut.inside b h
  have := C15_zerovec E (ag.alloc hi hout)
  exact this

theorem C83_zerovec (E : Env α) {out : Nat} {m : Mem α}
    {n : BitVec 32} {bs : List Block}  (hcut : Cuts bs n.toNat)
    (hout : Allocated m out n.toNat) {ps : Fin bs.length → Prog α Unit}
    (hp : ∀ i, (ps i).run = (fun o k => zerovec E (out + o) k) (bs.get i).1 (bs.get i).2)
    (hw : ∀ i, (ps i).Within (fun _ => False) (blockCells out (bs.get i))) :
    ∃ mF, zerovec E out n m = .ok ((), mF) ∧ AllSchedules ps m (fun _ => ()) mF := by
  refine ⟨_, C15_zerovec E hout, block_threads hcut (R := fun i => fun _ => False) ?_ hw fun i => ?_⟩
  · intro i j hij c hc
    exact fun h => h
  · rw [hp i]
    have h := List.get_mem bs i
    generalize bs.get i = b at h ⊢
    have hi := hcut.inside b h
    have ag : Agree m m out n.toNat b.1 b.2.toNat := Agree.self
    have := C15_zerovec E (ag.alloc hi hout)
    exact this

theorem C82_order_setvec (E : Env α) {out : Nat} {f : α} {m : Mem α}
    {n : BitVec 32} {bs : List Block} (hn : 0 < n.toNat) (hcut : Cuts bs n.toNat)
    (hout : Allocated m out n.toNat) :
    inOrder (fun o k => setvec E (out + o) f k) bs m = setvec E out f n m := by
  rw [C15_setvec E (f := f) hn hout]
  refine inOrder_ok hcut fun b h m' ag => ?_
  have hi := hcut.inside b h
  have := C15_setvec E (f := f) (hcut.nonempty b h) (ag.alloc hi hout)
  exact this

theorem C83_setvec (E : Env α) {out : Nat} {f : α} {m : Mem α}
    {n : BitVec 32} {bs : List Block} (hn : 0 < n.toNat) (hcut : Cuts bs n.toNat)
    (hout : Allocated m out n.toNat) {ps : Fin bs.length → Prog α Unit}
    (hp : ∀ i, (ps i).run = (fun o k => setvec E (out + o) f k) (bs.get i).1 (bs.get i).2)
    (hw : ∀ i, (ps i).Within (fun _ => False) (blockCells out (bs.get i))) :
    ∃ mF, setvec E out f n m = .ok ((), mF) ∧ AllSchedules ps m (fun _ => ()) mF := by
  refine ⟨_, C15_setvec E (f := f) hn hout, block_threads hcut (R := fun i => fun _ => False) ?_ hw fun i => ?_⟩
  · intro i j hij c hc
    exact fun h => h
  · rw [hp i]
    have h := List.get_mem bs i
    generalize bs.get i = b at h ⊢
    have hi := hcut.inside b h
    have ag : Agree m m out n.toNat b.1 b.2.toNat := Agree.self
    have := C15_setvec E (f := f) (hcut.nonempty b h) (ag.alloc hi hout)
    exact this

theorem C82_order_set_slope_vec [CommRing α] (E : Env α) (hE : E.Exact) {out : Nat} {f s : α} {m : Mem α}
    {n : BitVec 32} {bs : List Block} (hn : 0 < n.toNat) (hcut : Cuts bs n.toNat)
    (hout : Allocated m out n.toNat) :
    inOrder (fun o k => setSlopeVec E (out + o) (f + o * s) s k) bs m = setSlopeVec E out f s n m := by
  rw [C16_scalar E hE hn hout]
  refine inOrder_ok hcut fun b h m' ag => ?_
  have hi := hcut.inside b h
  have := C16_scalar E hE (f := f + b.1 * s) (slope := s) (hcut.nonempty b h) (ag.alloc hi hout)
  simp only [Nat.cast_add, add_mul, pow_add, ← add_assoc, ← mul_assoc] at this ⊢
  exact this

theorem C83_set_slope_vec [CommRing α] (E : Env α) (hE : E.Exact) {out : Nat} {f s : α} {m : Mem α}
    {n : BitVec 32} {bs : List Block} (hn : 0 < n.toNat) (hcut : Cuts bs n.toNat)
    (hout : Allocated m out n.toNat) {ps : Fin bs.length → Prog α Unit}
    (hp : ∀ i, (ps i).run = (fun o k => setSlopeVec E (out + o) (f + o * s) s k) (bs.get i).1 (bs.get i).2)
    (hw : ∀ i, (ps i).Within (fun _ => False) (blockCells out (bs.get i))) :
    ∃ mF, setSlopeVec E out f s n m = .ok ((), mF) ∧ AllSchedules ps m (fun _ => ()) mF := by
  refine ⟨_, C16_scalar E hE hn hout, block_threads hcut (R := fun i => fun _ => False) ?_ hw fun i => ?_⟩
  · intro i j hij c hc
    exact fun h => h
  · rw [hp i]
    have h := List.get_mem bs i
    generalize bs.get i = b at h ⊢
    have hi := hcut.inside b h
    have ag : Agree m m out n.toNat b.1 b.2.toNat := Agree.self
    have := C16_scalar E hE (f := f + b.1 * s) (slope := s) (hcut.nonempty b h) (ag.alloc hi hout)
    simp only [Nat.cast_add, add_mul, pow_add, ← add_assoc, ← mul_assoc] at this ⊢
    exact this

theorem C82_order_set_exp_vec [CommRing α] (E : Env α) (hE : E.Exact) {out : Nat} {f s : α} {m : Mem α}
    {n : BitVec 32} {bs : List Block} (hn : 0 < n.toNat) (hcut : Cuts bs n.toNat)
    (hout : Allocated m out n.toNat) :
    inOrder (fun o k => setExpVec E (out + o) (f * s ^ o) s k) bs m = setExpVec E out f s n m := by
  rw [C17_scalar E hE hn hout]
  refine inOrder_ok hcut fun b h m' ag => ?_
  have hi := hcut.inside b h
  have := C17_scalar E hE (f := f * s ^ b.1) (curve := s) (hcut.nonempty b h) (ag.alloc hi hout)
  simp only [Nat.cast_add, add_mul, pow_add, ← add_assoc, ← mul_assoc] at this ⊢
  exact this

theorem C83_set_exp_vec [CommRing α] (E : Env α) (hE : E.Exact) {out : Nat} {f s : α} {m : Mem α}
    {n : BitVec 32} {bs : List Block} (hn : 0 < n.toNat) (hcut : Cuts bs n.toNat)
    (hout : Allocated m out n.toNat) {ps : Fin bs.length → Prog α Unit}
    (hp : ∀ i, (ps i).run = (fun o k => setExpVec E (out + o) (f * s ^ o) s k) (bs.get i).1 (bs.get i).2)
    (hw : ∀ i, (ps i).Within (fun _ => False) (blockCells out (bs.get i))) :
    ∃ mF, setExpVec E out f s n m = .ok ((), mF) ∧ AllSchedules ps m (fun _ => ()) mF := by
  refine ⟨_, C17_scalar E hE hn hout, block_threads hcut (R := fun i => fun _ => False) ?_ hw fun i => ?_⟩
  · intro i j hij c hc
    exact fun h => h
  · rw [hp i]
    have h := List.get_mem bs i
    generalize bs.get i = b at h ⊢
    have hi := hcut.inside b h
    have ag : Agree m m out n.toNat b.1 b.2.toNat := Agree.self
    have := C17_scalar E hE (f := f * s ^ b.1) (curve := s) (hcut.nonempty b h) (ag.alloc hi hout)
    simp only [Nat.cast_add, add_mul, pow_add, ← add_assoc, ← mul_assoc] at this ⊢
    exact this

theorem C82_order_copyvec {out inp : Nat} {m : Mem α}
    {n : BitVec 32} {bs : List Block}  (hcut : Cuts bs n.toNat)
    (hout : Allocated m out n.toNat) {x : Nat → α} (hin : Holds m inp n.toNat x)
    (hs : out + n.toNat ≤ inp ∨ inp + n.toNat ≤ out) :
    inOrder (fun o k => copyvec (out + o) (inp + o) k) bs m = copyvec out inp n m := by
  rw [C18_copyvec hin hout hs]
  refine inOrder_ok hcut fun b h m' ag => ?_
  have hi := hcut.inside b h
  have := C18_copyvec (ag.holds hi hin (by omega)) (ag.alloc hi hout) (by omega)
  exact this

theorem C83_copyvec {out inp : Nat} {m : Mem α}
    {n : BitVec 32} {bs : List Block}  (hcut : Cuts bs n.toNat)
    (hout : Allocated m out n.toNat) {x : Nat → α} (hin : Holds m inp n.toNat x)
    (hs : out + n.toNat ≤ inp ∨ inp + n.toNat ≤ out) {ps : Fin bs.length → Prog α Unit}
    (hp : ∀ i, (ps i).run = (fun o k => copyvec (out + o) (inp + o) k) (bs.get i).1 (bs.get i).2)
    (hw : ∀ i, (ps i).Within (bufCells (inp + (bs.get i).1) (bs.get i).2.toNat) (blockCells out (bs.get i))) :
    ∃ mF, copyvec out inp n m = .ok ((), mF) ∧ AllSchedules ps m (fun _ => ()) mF := by
  refine ⟨_, C18_copyvec hin hout hs, block_threads hcut (R := fun i => bufCells (inp + (bs.get i).1) (bs.get i).2.toNat) ?_ hw fun i => ?_⟩
  · intro i j hij c hc
    exact block_reads hcut (by omega) hij hc
  · rw [hp i]
    have h := List.get_mem bs i
    generalize bs.get i = b at h ⊢
    have hi := hcut.inside b h
    have ag : Agree m m out n.toNat b.1 b.2.toNat := Agree.self
    have := C18_copyvec (ag.holds hi hin (by omega)) (ag.alloc hi hout) (by omega)
    exact this

theorem C82_order_addvec (E : Env α) {out inp : Nat} {m : Mem α}
    {n : BitVec 32} {bs : List Block} (hn : 0 < n.toNat) (hcut : Cuts bs n.toNat)
    {x y : Nat → α} (hout : Holds m out n.toNat x) (hin : Holds m inp n.toNat y)
    (hs : inp = out ∨ inp + n.toNat ≤ out ∨ out + n.toNat ≤ inp) :
    inOrder (fun o k => addvec E (out + o) (inp + o) k) bs m = addvec E out inp n m := by
  rw [C20_addvec E hn hout hin (by unfold SafePlacement; omega)]
  refine inOrder_ok hcut fun b h m' ag => ?_
  have hi := hcut.inside b h
  have := C20_addvec E (hcut.nonempty b h) (ag.holds hi hout (Or.inl rfl)) (ag.holds hi hin hs) (safe_block hi hs)
  exact this

theorem C83_addvec (E : Env α) {out inp : Nat} {m : Mem α}
    {n : BitVec 32} {bs : List Block} (hn : 0 < n.toNat) (hcut : Cuts bs n.toNat)
    {x y : Nat → α} (hout : Holds m out n.toNat x) (hin : Holds m inp n.toNat y)
    (hs : inp = out ∨ inp + n.toNat ≤ out ∨ out + n.toNat ≤ inp) {ps : Fin bs.length → Prog α Unit}
    (hp : ∀ i, (ps i).run = (fun o k => addvec E (out + o) (inp + o) k) (bs.get i).1 (bs.get i).2)
    (hw : ∀ i, (ps i).Within (fun j => bufCells (inp + (bs.get i).1) (bs.get i).2.toNat j ∨ blockCells out (bs.get i) j) (blockCells out (bs.get i))) :
    ∃ mF, addvec E out inp n m = .ok ((), mF) ∧ AllSchedules ps m (fun _ => ()) mF := by
  refine ⟨_, C20_addvec E hn hout hin (by unfold SafePlacement; omega), block_threads hcut (R := fun i => fun j => bufCells (inp + (bs.get i).1) (bs.get i).2.toNat j ∨ blockCells out (bs.get i) j) ?_ hw fun i => ?_⟩
  · intro i j hij c hc
    rintro (h | h)
    · exact block_reads hcut hs hij hc h
    · exact block_writes hcut hij hc h
  · rw [hp i]
    have h := List.get_mem bs i
    generalize bs.get i = b at h ⊢
    have hi := hcut.inside b h
    have ag : Agree m m out n.toNat b.1 b.2.toNat := Agree.self
    have := C20_addvec E (hcut.nonempty b h) (ag.holds hi hout (Or.inl rfl)) (ag.holds hi hin hs) (safe_block hi hs)
    exact this

theorem C82_order_addvec_const (E : Env α) {out : Nat} {c : α} {m : Mem α}
    {n : BitVec 32} {bs : List Block} (hn : 0 < n.toNat) (hcut : Cuts bs n.toNat)
    {x : Nat → α} (hout : Holds m out n.toNat x) :
    inOrder (fun o k => addvecConst E (out + o) c k) bs m = addvecConst E out c n m := by
  rw [C20_addvec_const E (c := c) hn hout]
  refine inOrder_ok hcut fun b h m' ag => ?_
  have hi := hcut.inside b h
  have := C20_addvec_const E (c := c) (hcut.nonempty b h) (ag.holds hi hout (Or.inl rfl))
  exact this

theorem C83_addvec_const (E : Env α) {out : Nat} {c : α} {m : Mem α}
    {n : BitVec 32} {bs : List Block} (hn : 0 < n.toNat) (hcut : Cuts bs n.toNat)
    {x : Nat → α} (hout : Holds m out n.toNat x) {ps : Fin bs.length → Prog α Unit}
    (hp : ∀ i, (ps i).run = (fun o k => addvecConst E (out + o) c k) (bs.get i).1 (bs.get i).2)
    (hw : ∀ i, (ps i).Within (blockCells out (bs.get i)) (blockCells out (bs.get i))) :
    ∃ mF, addvecConst E out c n m = .ok ((), mF) ∧ AllSchedules ps m (fun _ => ()) mF := by
  refine ⟨_, C20_addvec_const E (c := c) hn hout, block_threads hcut (R := fun i => blockCells out (bs.get i)) ?_ hw fun i => ?_⟩
  · intro i j hij c hc
    exact block_writes hcut hij hc
  · rw [hp i]
    have h := List.get_mem bs i
    generalize bs.get i = b at h ⊢
    have hi := hcut.inside b h
    have ag : Agree m m out n.toNat b.1 b.2.toNat := Agree.self
    have := C20_addvec_const E (c := c) (hcut.nonempty b h) (ag.holds hi hout (Or.inl rfl))
    exact this

theorem C82_order_zerovec_simd (t : Target) (E : Env α) (aligned : Bool) {out : Nat} {m : Mem α}
    {n : BitVec 32} {bs : List Block} (hn : 0 < n.toNat) (hmul : t.perLine ∣ n.toNat) (hcut : Cuts bs n.toNat)
    (hbm : ∀ b ∈ bs, t.perLine ∣ b.1 ∧ t.perLine ∣ b.2.toNat)
    (ho : t.AddrOk aligned out) (hout : Allocated m out n.toNat) :
    inOrder (fun o k => zerovecSimd (t.vec E) aligned (out + o) k) bs m = zerovecSimd (t.vec E) aligned out n m := by
  rw [C15_zerovec_simd t E aligned hn hmul ho hout]
  refine inOrder_ok hcut fun b h m' ag => ?_
  have hi := hcut.inside b h
  have hal : t.align ∣ b.1 := (align_dvd_perLine t).trans (hbm b h).1
  have := C15_zerovec_simd t E aligned (hcut.nonempty b h) (hbm b h).2 (fun h' => Nat.dvd_add (ho h') hal) (ag.alloc hi hout)
  exact this

theorem C83_zerovec_simd (t : Target) (E : Env α) (aligned : Bool) {out : Nat} {m : Mem α}
    {n : BitVec 32} {bs : List Block} (hn : 0 < n.toNat) (hmul : t.perLine ∣ n.toNat) (hcut : Cuts bs n.toNat)
    (hbm : ∀ b ∈ bs, t.perLine ∣ b.1 ∧ t.perLine ∣ b.2.toNat)
    (ho : t.AddrOk aligned out) (hout : Allocated m out n.toNat) {ps : Fin bs.length → Prog α Unit}
    (hp : ∀ i, (ps i).run = (fun o k => zerovecSimd (t.vec E) aligned (out + o) k) (bs.get i).1 (bs.get i).2)
    (hw : ∀ i, (ps i).Within (fun _ => False) (blockCells out (bs.get i))) :
    ∃ mF, zerovecSimd (t.vec E) aligned out n m = .ok ((), mF) ∧ AllSchedules ps m (fun _ => ()) mF := by
  refine ⟨_, C15_zerovec_simd t E aligned hn hmul ho hout, block_threads hcut (R := fun i => fun _ => False) ?_ hw fun i => ?_⟩
  · intro i j hij c hc
    exact fun h => h
  · rw [hp i]
    have h := List.get_mem bs i
    generalize bs.get i = b at h ⊢
    have hi := hcut.inside b h
    have ag : Agree m m out n.toNat b.1 b.2.toNat := Agree.self
    have hal : t.align ∣ b.1 := (align_dvd_perLine t).trans (hbm b h).1
    have := C15_zerovec_simd t E aligned (hcut.nonempty b h) (hbm b h).2 (fun h' => Nat.dvd_add (ho h') hal) (ag.alloc hi hout)
    exact this

theorem C82_order_setvec_simd (t : Target) (E : Env α) (aligned : Bool) {out : Nat} {f : α} {m : Mem α}
    {n : BitVec 32} {bs : List Block} (hn : 0 < n.toNat) (hmul : t.perLine ∣ n.toNat) (hcut : Cuts bs n.toNat)
    (hbm : ∀ b ∈ bs, t.perLine ∣ b.1 ∧ t.perLine ∣ b.2.toNat)
    (ho : t.AddrOk aligned out) (hout : Allocated m out n.toNat) :
    inOrder (fun o k => setvecSimd (t.vec E) aligned (out + o) f k) bs m = setvecSimd (t.vec E) aligned out f n m := by
  rw [C15_setvec_simd t E aligned (f := f) hn hmul ho hout]
  refine inOrder_ok hcut fun b h m' ag => ?_
  have hi := hcut.inside b h
  have hal : t.align ∣ b.1 := (align_dvd_perLine t).trans (hbm b h).1
  have := C15_setvec_simd t E aligned (f := f) (hcut.nonempty b h) (hbm b h).2 (fun h' => Nat.dvd_add (ho h') hal) (ag.alloc hi hout)
  exact this

theorem C83_setvec_simd (t : Target) (E : Env α) (aligned : Bool) {out : Nat} {f : α} {m : Mem α}
    {n : BitVec 32} {bs : List Block} (hn : 0 < n.toNat) (hmul : t.perLine ∣ n.toNat) (hcut : Cuts bs n.toNat)
    (hbm : ∀ b ∈ bs, t.perLine ∣ b.1 ∧ t.perLine ∣ b.2.toNat)
    (ho : t.AddrOk aligned out) (hout : Allocated m out n.toNat) {ps : Fin bs.length → Prog α Unit}
    (hp : ∀ i, (ps i).run = (fun o k => setvecSimd (t.vec E) aligned (out + o) f k) (bs.get i).1 (bs.get i).2)
    (hw : ∀ i, (ps i).Within (fun _ => False) (blockCells out (bs.get i))) :
    ∃ mF, setvecSimd (t.vec E) aligned out f n m = .ok ((), mF) ∧ AllSchedules ps m (fun _ => ()) mF := by
  refine ⟨_, C15_setvec_simd t E aligned (f := f) hn hmul ho hout, block_threads hcut (R := fun i => fun _ => False) ?_ hw fun i => ?_⟩
  · intro i j hij c hc
    exact fun h => h
  · rw [hp i]
    have h := List.get_mem bs i
    generalize bs.get i = b at h ⊢
    have hi := hcut.inside b h
    have ag : Agree m m out n.toNat b.1 b.2.toNat := Agree.self
    have hal : t.align ∣ b.1 := (align_dvd_perLine t).trans (hbm b h).1
    have := C15_setvec_simd t E aligned (f := f) (hcut.nonempty b h) (hbm b h).2 (fun h' => Nat.dvd_add (ho h') hal) (ag.alloc hi hout)
    exact this

theorem C82_order_set_slope_vec_simd [CommRing α] (t : Target) (E : Env α) (hE : E.Exact) {out : Nat} {f s : α} {m : Mem α}
    {n : BitVec 32} {bs : List Block} (hn : 0 < n.toNat) (hmul : t.perLine ∣ n.toNat) (hcut : Cuts bs n.toNat)
    (hbm : ∀ b ∈ bs, t.perLine ∣ b.1 ∧ t.perLine ∣ b.2.toNat)
    (hoal : t.align ∣ out) (hout : Allocated m out n.toNat) :
    inOrder (fun o k => setSlopeVecSimd E (t.vec E) (out + o) (f + o * s) s k) bs m = setSlopeVecSimd E (t.vec E) out f s n m := by
  rw [C16_simd t E hE hn hmul hoal hout]
  refine inOrder_ok hcut fun b h m' ag => ?_
  have hi := hcut.inside b h
  have hal : t.align ∣ b.1 := (align_dvd_perLine t).trans (hbm b h).1
  have := C16_simd t E hE (f := f + b.1 * s) (slope := s) (hcut.nonempty b h) (hbm b h).2 (Nat.dvd_add hoal hal) (ag.alloc hi hout)
  simp only [Nat.cast_add, add_mul, pow_add, ← add_assoc, ← mul_assoc] at this ⊢
  exact this

theorem C83_set_slope_vec_simd [CommRing α] (t : Target) (E : Env α) (hE : E.Exact) {out : Nat} {f s : α} {m : Mem α}
    {n : BitVec 32} {bs : List Block} (hn : 0 < n.toNat) (hmul : t.perLine ∣ n.toNat) (hcut : Cuts bs n.toNat)
    (hbm : ∀ b ∈ bs, t.perLine ∣ b.1 ∧ t.perLine ∣ b.2.toNat)
    (hoal : t.align ∣ out) (hout : Allocated m out n.toNat) {ps : Fin bs.length → Prog α Unit}
    (hp : ∀ i, (ps i).run = (fun o k => setSlopeVecSimd E (t.vec E) (out + o) (f + o * s) s k) (bs.get i).1 (bs.get i).2)
    (hw : ∀ i, (ps i).Within (fun _ => False) (blockCells out (bs.get i))) :
    ∃ mF, setSlopeVecSimd E (t.vec E) out f s n m = .ok ((), mF) ∧ AllSchedules ps m (fun _ => ()) mF := by
  refine ⟨_, C16_simd t E hE hn hmul hoal hout, block_threads hcut (R := fun i => fun _ => False) ?_ hw fun i => ?_⟩
  · intro i j hij c hc
    exact fun h => h
  · rw [hp i]
    have h := List.get_mem bs i
    generalize bs.get i = b at h ⊢
    have hi := hcut.inside b h
    have ag : Agree m m out n.toNat b.1 b.2.toNat := Agree.self
    have hal : t.align ∣ b.1 := (align_dvd_perLine t).trans (hbm b h).1
    have := C16_simd t E hE (f := f + b.1 * s) (slope := s) (hcut.nonempty b h) (hbm b h).2 (Nat.dvd_add hoal hal) (ag.alloc hi hout)
    simp only [Nat.cast_add, add_mul, pow_add, ← add_assoc, ← mul_assoc] at this ⊢
    exact this

theorem C82_order_set_exp_vec_simd [CommRing α] (t : Target) (E : Env α) (hE : E.Exact) {out : Nat} {f s : α} {m : Mem α}
    {n : BitVec 32} {bs : List Block} (hn : 0 < n.toNat) (hmul : t.perLine ∣ n.toNat) (hcut : Cuts bs n.toNat)
    (hbm : ∀ b ∈ bs, t.perLine ∣ b.1 ∧ t.perLine ∣ b.2.toNat)
    (hoal : t.align ∣ out) (hout : Allocated m out n.toNat) :
    inOrder (fun o k => setExpVecSimd E (t.vec E) (out + o) (f * s ^ o) s k) bs m = setExpVecSimd E (t.vec E) out f s n m := by
  rw [C17_simd t E hE hn hmul hoal hout]
  refine inOrder_ok hcut fun b h m' ag => ?_
  have hi := hcut.inside b h
  have hal : t.align ∣ b.1 := (align_dvd_perLine t).trans (hbm b h).1
  have := C17_simd t E hE (f := f * s ^ b.1) (curve := s) (hcut.nonempty b h) (hbm b h).2 (Nat.dvd_add hoal hal) (ag.alloc hi hout)
  simp only [Nat.cast_add, add_mul, pow_add, ← add_assoc, ← mul_assoc] at this ⊢
  exact this

theorem C83_set_exp_vec_simd [CommRing α] (t : Target) (E : Env α) (hE : E.Exact) {out : Nat} {f s : α} {m : Mem α}
    {n : BitVec 32} {bs : List Block} (hn : 0 < n.toNat) (hmul : t.perLine ∣ n.toNat) (hcut : Cuts bs n.toNat)
    (hbm : ∀ b ∈ bs, t.perLine ∣ b.1 ∧ t.perLine ∣ b.2.toNat)
    (hoal : t.align ∣ out) (hout : Allocated m out n.toNat) {ps : Fin bs.length → Prog α Unit}
    (hp : ∀ i, (ps i).run = (fun o k => setExpVecSimd E (t.vec E) (out + o) (f * s ^ o) s k) (bs.get i).1 (bs.get i).2)
    (hw : ∀ i, (ps i).Within (fun _ => False) (blockCells out (bs.get i))) :
    ∃ mF, setExpVecSimd E (t.vec E) out f s n m = .ok ((), mF) ∧ AllSchedules ps m (fun _ => ()) mF := by
  refine ⟨_, C17_simd t E hE hn hmul hoal hout, block_threads hcut (R := fun i => fun _ => False) ?_ hw fun i => ?_⟩
  · intro i j hij c hc
    exact fun h => h
  · rw [hp i]
    have h := List.get_mem bs i
    generalize bs.get i = b at h ⊢
    have hi := hcut.inside b h
    have ag : Agree m m out n.toNat b.1 b.2.toNat := Agree.self
    have hal : t.align ∣ b.1 := (align_dvd_perLine t).trans (hbm b h).1
    have := C17_simd t E hE (f := f * s ^ b.1) (curve := s) (hcut.nonempty b h) (hbm b h).2 (Nat.dvd_add hoal hal) (ag.alloc hi hout)
    simp only [Nat.cast_add, add_mul, pow_add, ← add_assoc, ← mul_assoc] at this ⊢
    exact this

theorem C82_order_addvec_simd (t : Target) (E : Env α) {out inp : Nat} {m : Mem α}
    {n : BitVec 32} {bs : List Block} (hn : 0 < n.toNat) (hmul : t.perLine ∣ n.toNat) (hcut : Cuts bs n.toNat)
    (hbm : ∀ b ∈ bs, t.perLine ∣ b.1 ∧ t.perLine ∣ b.2.toNat)
    (hoal : t.align ∣ out) (hial : t.align ∣ inp)
    {x y : Nat → α} (hout : Holds m out n.toNat x) (hin : Holds m inp n.toNat y)
    (hs : inp = out ∨ inp + n.toNat ≤ out ∨ out + n.toNat ≤ inp) :
    inOrder (fun o k => addvecSimd (t.vec E) (out + o) (inp + o) k) bs m = addvecSimd (t.vec E) out inp n m := by
  rw [C20_addvec_simd t E hn hmul hoal hial hout hin (by unfold SafePlacement; omega)]
  refine inOrder_ok hcut fun b h m' ag => ?_
  have hi := hcut.inside b h
  have hal : t.align ∣ b.1 := (align_dvd_perLine t).trans (hbm b h).1
  have := C20_addvec_simd t E (hcut.nonempty b h) (hbm b h).2 (Nat.dvd_add hoal hal) (Nat.dvd_add hial hal) (ag.holds hi hout (Or.inl rfl)) (ag.holds hi hin hs) (safe_block hi hs)
  exact this

theorem C83_addvec_simd (t : Target) (E : Env α) {out inp : Nat} {m : Mem α}
    {n : BitVec 32} {bs : List Block} (hn : 0 < n.toNat) (hmul : t.perLine ∣ n.toNat) (hcut : Cuts bs n.toNat)
    (hbm : ∀ b ∈ bs, t.perLine ∣ b.1 ∧ t.perLine ∣ b.2.toNat)
    (hoal : t.align ∣ out) (hial : t.align ∣ inp)
    {x y : Nat → α} (hout : Holds m out n.toNat x) (hin : Holds m inp n.toNat y)
    (hs : inp = out ∨ inp + n.toNat ≤ out ∨ out + n.toNat ≤ inp) {ps : Fin bs.length → Prog α Unit}
    (hp : ∀ i, (ps i).run = (fun o k => addvecSimd (t.vec E) (out + o) (inp + o) k) (bs.get i).1 (bs.get i).2)
    (hw : ∀ i, (ps i).Within (fun j => bufCells (inp + (bs.get i).1) (bs.get i).2.toNat j ∨ blockCells out (bs.get i) j) (blockCells out (bs.get i))) :
    ∃ mF, addvecSimd (t.vec E) out inp n m = .ok ((), mF) ∧ AllSchedules ps m (fun _ => ()) mF := by
  refine ⟨_, C20_addvec_simd t E hn hmul hoal hial hout hin (by unfold SafePlacement; omega), block_threads hcut (R := fun i => fun j => bufCells (inp + (bs.get i).1) (bs.get i).2.toNat j ∨ blockCells out (bs.get i) j) ?_ hw fun i => ?_⟩
  · intro i j hij c hc
    rintro (h | h)
    · exact block_reads hcut hs hij hc h
    · exact block_writes hcut hij hc h
  · rw [hp i]
    have h := List.get_mem bs i
    generalize bs.get i = b at h ⊢
    have hi := hcut.inside b h
    have ag : Agree m m out n.toNat b.1 b.2.toNat := Agree.self
    have hal : t.align ∣ b.1 := (align_dvd_perLine t).trans (hbm b h).1
    have := C20_addvec_simd t E (hcut.nonempty b h) (hbm b h).2 (Nat.dvd_add hoal hal) (Nat.dvd_add hial hal) (ag.holds hi hout (Or.inl rfl)) (ag.holds hi hin hs) (safe_block hi hs)
    exact this

theorem C82_order_addvec_const_simd (t : Target) (E : Env α) {out : Nat} {c : α} {m : Mem α}
    {n : BitVec 32} {bs : List Block} (hn : 0 < n.toNat) (hmul : t.perLine ∣ n.toNat) (hcut : Cuts bs n.toNat)
    (hbm : ∀ b ∈ bs, t.perLine ∣ b.1 ∧ t.perLine ∣ b.2.toNat)
    (hoal : t.align ∣ out) {x : Nat → α} (hout : Holds m out n.toNat x) :
    inOrder (fun o k => addvecConstSimd (t.vec E) (out + o) c k) bs m = addvecConstSimd (t.vec E) out c n m := by
  rw [C20_addvec_const_simd t E (c := c) hn hmul hoal hout]
  refine inOrder_ok hcut fun b h m' ag => ?_
  have hi := hcut.inside b h
  have hal : t.align ∣ b.1 := (align_dvd_perLine t).trans (hbm b h).1
  have := C20_addvec_const_simd t E (c := c) (hcut.nonempty b h) (hbm b h).2 (Nat.dvd_add hoal hal) (ag.holds hi hout (Or.inl rfl))
  exact this

theorem C83_addvec_const_simd (t : Target) (E : Env α) {out : Nat} {c : α} {m : Mem α}
    {n : BitVec 32} {bs : List Block} (hn : 0 < n.toNat) (hmul : t.perLine ∣ n.toNat) (hcut : Cuts bs n.toNat)
    (hbm : ∀ b ∈ bs, t.perLine ∣ b.1 ∧ t.perLine ∣ b.2.toNat)
    (hoal : t.align ∣ out) {x : Nat → α} (hout : Holds m out n.toNat x) {ps : Fin bs.length → Prog α Unit}
    (hp : ∀ i, (ps i).run = (fun o k => addvecConstSimd (t.vec E) (out + o) c k) (bs.get i).1 (bs.get i).2)
    (hw : ∀ i, (ps i).Within (blockCells out (bs.get i)) (blockCells out (bs.get i))) :
    ∃ mF, addvecConstSimd (t.vec E) out c n m = .ok ((), mF) ∧ AllSchedules ps m (fun _ => ()) mF := by
  refine ⟨_, C20_addvec_const_simd t E (c := c) hn hmul hoal hout, block_threads hcut (R := fun i => blockCells out (bs.get i)) ?_ hw fun i => ?_⟩
  · intro i j hij c hc
    exact block_writes hcut hij hc
  · rw [hp i]
    have h := List.get_mem bs i
    generalize bs.get i = b at h ⊢
    have hi := hcut.inside b h
    have ag : Agree m m out n.toNat b.1 b.2.toNat := Agree.self
    have hal : t.align ∣ b.1 := (align_dvd_perLine t).trans (hbm b h).1
    have := C20_addvec_const_simd t E (c := c) (hcut.nonempty b h) (hbm b h).2 (Nat.dvd_add hoal hal) (ag.holds hi hout (Or.inl rfl))
    exact this

section examples
open Examples

/-- 16 `double`s (SSE2), second half first. -/
example : inOrder (fun o k => addvecSimd (Target.sse2.vec intEnv) (0 + o) (16 + o) k) [(8, 8#32), (0, 8#32)] (ramp 32)
    = addvecSimd (Target.sse2.vec intEnv) 0 16 16#32 (ramp 32) :=
  C82_order_addvec_simd .sse2 intEnv (by decide) (by decide) two_blocks (by decide) (by decide) (by decide)
    (x := fun i => 10 * (i : Int) - 100) (y := fun i => 10 * (i : Int) + 60) (by unfold Holds; decide)
    (by unfold Holds; decide) (Or.inr (Or.inr (by decide)))

/-- Two threads fill the halves of a buffer with a ramp. -/
example : ∃ ps : Fin 2 → Prog Int Unit, ∃ mF,
    setSlopeVecSimd intEnv (Target.sse2.vec intEnv) 0 5 3 16#32 (ramp 16) = .ok ((), mF) ∧
      AllSchedules ps (ramp 16) (fun _ => ()) mF := by
  have h : ∀ i : Fin 2, ∃ p : Prog Int Unit,
      p.run = (fun (o : Nat) k => setSlopeVecSimd intEnv (Target.sse2.vec intEnv) (0 + o) (5 + o * 3) 3 k)
        ([(8, 8#32), (0, 8#32)].get i).1 ([(8, 8#32), (0, 8#32)].get i).2 ∧ _ :=
    fun i => C83_accesses_set_slope_vec_simd .sse2 intEnv (by revert i; decide) (by revert i; decide) (by revert i; decide)
  choose ps hrun hacc using h
  exact ⟨ps, C83_set_slope_vec_simd .sse2 intEnv intEnv_exact (n := 16#32) (m := ramp 16) (out := 0)
    (bs := [(8, 8#32), (0, 8#32)]) (by decide) (by decide) two_blocks (by decide) (by decide)
    (by unfold Allocated; decide) hrun hacc⟩

end examples

end Nova
