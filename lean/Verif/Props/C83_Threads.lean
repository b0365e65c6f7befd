import Verif.Lemmas.Threads
import Verif.Lemmas.Accesses
import Verif.Props.C06_Footprint
import Verif.Props.C82_Blocks

/-!
# C83: calls in several threads

Calls of different threads on buffers that do not overlap (or are only read by all of them) can be
interleaved in any way: every schedule, at the granularity of single elements, gives the memory that the
calls leave when they are executed one after the other.

`Accesses R W call` (SpecThreads.lean) says that the call is made of reads of cells in `R` and writes to cells
in `W`; `AllSchedules ps m res mF` that every schedule of the threads `ps` ends with memory `mF`.
-/

namespace Nova
open Spec
variable {α β ι : Type}

/-! ## Threads in general -/

/-- Race-free threads: if every thread runs without fault when it is alone, then under every schedule all of
them return what they return alone, and every cell ends up with the contents its only writer gives it. -/
theorem C83_threads [DecidableEq ι] [Fintype ι] {R W : ι → Nat → Prop} {ps : ι → Prog α β} {m mF : Mem α}
    {res : ι → β} {M : ι → Mem α} (hrace : RaceFree R W) (hw : ∀ i, (ps i).Within (R i) (W i))
    (hr : ∀ i, (ps i).run m = .ok (res i, M i)) (hin : ∀ i a, W i a → mF a = M i a)
    (hout : ∀ a, (∀ i, ¬ W i a) → mF a = m a) : AllSchedules ps m res mF :=
  allSchedules hrace hw hr hin hout

/-! ## Which cells a call accesses -/

theorem readable_of {n : Nat} {a : SArg α} {R : Nat → Prop} (h : ∀ c, argCells n a c → R c) : Readable R n a := by
  cases a with
  | ptr p => exact fun i hi => h _ ⟨by omega, by omega⟩
  | scalar c => trivial
  | ramp b s => trivial

/-- A buffer argument is aligned. -/
def ArgAligned (al : Nat) : SArg α → Prop
  | .ptr p => al ∣ p
  | _ => True

theorem vreadable_of {al n : Nat} {a : SArg α} {R : Nat → Prop} (hal : ArgAligned al a)
    (h : ∀ c, argCells n a c → R c) : VReadable R al n a := by
  cases a with
  | ptr p => exact ⟨hal, fun i hi => h _ ⟨by omega, by omega⟩⟩
  | scalar c => trivial
  | ramp b s => trivial

theorem buf_of {out n : Nat} : ∀ i, i < n → bufCells out n (out + i) := fun i hi => ⟨by omega, by omega⟩

theorem C83_accesses_unary_scalar (A : Arith α) (op : UnOp) {out inp : Nat} {n : BitVec 32} (hn : 0 < n.toNat) :
    Accesses (bufCells inp n.toNat) (bufCells out n.toNat) (op.vec A out inp n) :=
  (does_vec1 hn buf_of buf_of).accesses

theorem C83_accesses_unary_simd (t : Target) (E : Env α) (op : UnOp) {out inp : Nat} {n : BitVec 32}
    (hn : 0 < n.toNat) (hmul : t.perLine ∣ n.toNat) (hoal : t.align ∣ out) (hial : t.align ∣ inp) :
    Accesses (bufCells inp n.toNat) (bufCells out n.toNat) (op.vecSimd (t.vec E) out inp n) := by
  refine Does.accesses (Q := fun _ => True) ?_
  apply does_simd1 (t.lawful E) (perLine_le t E hn hmul) hoal <;> rw [processed_eq t E hmul]
  · exact buf_of
  · exact ⟨hial, buf_of⟩

theorem C83_accesses_binary_scalar (A : Arith α) (op : BinOp) {out : Nat} {a b : SArg α} {n : BitVec 32}
    (hn : 0 < n.toNat) :
    Accesses (fun j => argCells n.toNat a j ∨ argCells n.toNat b j) (bufCells out n.toNat)
      (op.vec A out a b n) :=
  (does_vec2 hn buf_of (readable_of fun _ h => Or.inl h) (readable_of fun _ h => Or.inr h)).accesses

theorem C83_accesses_binary_simd (t : Target) (E : Env α) (op : BinOp) {out : Nat} {a b : SArg α}
    {n : BitVec 32} (hn : 0 < n.toNat) (hmul : t.perLine ∣ n.toNat) (hoal : t.align ∣ out)
    (ha : ArgAligned t.align a) (hb : ArgAligned t.align b) :
    Accesses (fun j => argCells n.toNat a j ∨ argCells n.toNat b j) (bufCells out n.toNat)
      (op.vecSimd (t.vec E) out a b n) := by
  refine Does.accesses (Q := fun _ => True) ?_
  apply does_simd2 (t.lawful E) (perLine_le t E hn hmul) hoal <;> rw [processed_eq t E hmul]
  · exact buf_of
  · exact vreadable_of ha fun _ h => Or.inl h
  · exact vreadable_of hb fun _ h => Or.inr h

theorem C83_accesses_ternary_scalar (A : Arith α) (op : TerOp) {out : Nat} {a b c : SArg α} {n : BitVec 32}
    (hn : 0 < n.toNat) :
    Accesses (fun j => argCells n.toNat a j ∨ argCells n.toNat b j ∨ argCells n.toNat c j) (bufCells out n.toNat)
      (op.vec A out a b c n) :=
  (does_vec3 hn buf_of (readable_of fun _ h => Or.inl h) (readable_of fun _ h => Or.inr (Or.inl h)) (readable_of fun _ h => Or.inr (Or.inr h))).accesses

theorem C83_accesses_ternary_simd (t : Target) (E : Env α) (op : TerOp) {out : Nat} {a b c : SArg α}
    {n : BitVec 32} (hn : 0 < n.toNat) (hmul : t.perLine ∣ n.toNat) (hoal : t.align ∣ out)
    (ha : ArgAligned t.align a) (hb : ArgAligned t.align b) (hc : ArgAligned t.align c) :
    Accesses (fun j => argCells n.toNat a j ∨ argCells n.toNat b j ∨ argCells n.toNat c j) (bufCells out n.toNat)
      (op.vecSimd (t.vec E) out a b c n) := by
  refine Does.accesses (Q := fun _ => True) ?_
  apply does_simd3 (t.lawful E) (perLine_le t E hn hmul) hoal <;> rw [processed_eq t E hmul]
  · exact buf_of
  · exact vreadable_of ha fun _ h => Or.inl h
  · exact vreadable_of hb fun _ h => Or.inr (Or.inl h)
  · exact vreadable_of hc fun _ h => Or.inr (Or.inr h)

theorem C83_accesses_quad_scalar (A : Arith α) (op : QuadOp) {out : Nat} {a b c d : SArg α} {n : BitVec 32}
    (hn : 0 < n.toNat) :
    Accesses (fun j => argCells n.toNat a j ∨ argCells n.toNat b j ∨ argCells n.toNat c j ∨ argCells n.toNat d j) (bufCells out n.toNat)
      (op.vec A out a b c d n) :=
  (does_vec4 hn buf_of (readable_of fun _ h => Or.inl h) (readable_of fun _ h => Or.inr (Or.inl h)) (readable_of fun _ h => Or.inr (Or.inr (Or.inl h))) (readable_of fun _ h => Or.inr (Or.inr (Or.inr h)))).accesses

theorem C83_accesses_quad_simd (t : Target) (E : Env α) (op : QuadOp) {out : Nat} {a b c d : SArg α}
    {n : BitVec 32} (hn : 0 < n.toNat) (hmul : t.perLine ∣ n.toNat) (hoal : t.align ∣ out)
    (ha : ArgAligned t.align a) (hb : ArgAligned t.align b) (hc : ArgAligned t.align c) (hd : ArgAligned t.align d) :
    Accesses (fun j => argCells n.toNat a j ∨ argCells n.toNat b j ∨ argCells n.toNat c j ∨ argCells n.toNat d j) (bufCells out n.toNat)
      (op.vecSimd (t.vec E) out a b c d n) := by
  refine Does.accesses (Q := fun _ => True) ?_
  apply does_simd4 (t.lawful E) (perLine_le t E hn hmul) hoal <;> rw [processed_eq t E hmul]
  · exact buf_of
  · exact vreadable_of ha fun _ h => Or.inl h
  · exact vreadable_of hb fun _ h => Or.inr (Or.inl h)
  · exact vreadable_of hc fun _ h => Or.inr (Or.inr (Or.inl h))
  · exact vreadable_of hd fun _ h => Or.inr (Or.inr (Or.inr h))

/-! ## One buffer, shared between the threads

Thread `i` works on the piece `bs[i]` of the buffer.  Whatever programs the threads execute, if they do what
the calls do (`run = call`) and access the cells the calls access (`Within`), every schedule gives the result
of one single-threaded call on the whole buffer.  The theorems `C83_accesses_…` above show that such programs
exist: the calls themselves, access by access. -/

theorem blocks_disjoint {bs : List Block} {N : Nat} (h : Cuts bs N) {i j : Fin bs.length} (hij : i ≠ j) (e : Nat) :
    (bs.get i).Has e → ¬ (bs.get j).Has e := by
  have hp := List.pairwise_iff_getElem.mp h.disjoint
  intro h1 h2
  rcases Nat.lt_or_gt_of_ne (fun e => hij (Fin.ext e)) with hlt | hlt
  · exact hp i j i.2 j.2 hlt e h1 h2
  · exact hp j i j.2 i.2 hlt e h2 h1

/-- Blocks of the output. -/
def blockCells (out : Nat) (b : Block) : Nat → Prop := bufCells (out + b.1) b.2.toNat

theorem argFrom_cells {r : α → α → Nat → α} {o k c : Nat} {a : SArg α} :
    argCells k (argFrom r o a) c → ∃ p, a = .ptr p ∧ bufCells (p + o) k c := by
  cases a with
  | ptr p => exact fun h => ⟨p, rfl, h⟩
  | scalar c => exact fun h => h.elim
  | ramp b s => exact fun h => h.elim

theorem block_reads {out p N : Nat} {bs : List Block} (h : Cuts bs N)
    (hp : p = out ∨ p + N ≤ out ∨ out + N ≤ p) {i j : Fin bs.length} (hij : i ≠ j) {c : Nat}
    (hw : blockCells out (bs.get i) c) : ¬ bufCells (p + (bs.get j).1) (bs.get j).2.toNat c := by
  intro hr
  have hi := h.inside _ (List.get_mem bs i)
  have hj := h.inside _ (List.get_mem bs j)
  unfold blockCells bufCells at hw
  unfold bufCells at hr
  rcases hp with rfl | hp
  · refine blocks_disjoint h hij (c - p) ?_ ?_ <;> unfold Block.Has <;> omega
  · omega

theorem block_writes {out N : Nat} {bs : List Block} (h : Cuts bs N) {i j : Fin bs.length} (hij : i ≠ j) {c : Nat}
    (hw : blockCells out (bs.get i) c) : ¬ blockCells out (bs.get j) c :=
  block_reads h (Or.inl rfl) hij hw

theorem block_threads {bs : List Block} {N out : Nat} (hcut : Cuts bs N) {m : Mem α} {y : Nat → α}
    {R : Fin bs.length → Nat → Prop} {ps : Fin bs.length → Prog α Unit}
    (hR : ∀ i j, i ≠ j → ∀ c, blockCells out (bs.get i) c → ¬ R j c)
    (hw : ∀ i, (ps i).Within (R i) (blockCells out (bs.get i)))
    (hr : ∀ i, (ps i).run m = .ok ((), overwrite m (out + (bs.get i).1) (bs.get i).2.toNat
      fun e => y ((bs.get i).1 + e))) :
    AllSchedules ps m (fun _ => ()) (overwrite m out N y) := by
  refine C83_threads (W := fun i => blockCells out (bs.get i))
    (fun i j hij c hc => ⟨hR i j hij c hc, block_writes hcut hij hc⟩) hw hr (fun i c hc => ?_) fun c hc => ?_
  · have hi := hcut.inside _ (List.get_mem bs i)
    unfold blockCells bufCells at hc
    unfold overwrite
    rw [if_pos hc, if_pos (by omega)]
    congr 2
    omega
  · unfold overwrite
    rw [if_neg]
    intro h
    obtain ⟨b, hb, hh⟩ := hcut.cover (c - out) (by omega)
    obtain ⟨i, rfl⟩ := List.get_of_mem hb
    apply hc i
    unfold Block.Has at hh
    show bufCells _ _ _
    unfold bufCells
    omega

theorem Agree.self {m : Mem α} {out N o k : Nat} : Agree m m out N o k := fun _ => Or.inl rfl

theorem C83_unary_scalar (A : Arith α) (op : UnOp) {m : Mem α} {out inp : Nat} {n : BitVec 32}
    {bs : List Block} {x y : Nat → α} (hn : 0 < n.toNat) (hcut : Cuts bs n.toNat)
    (hout : Allocated m out n.toNat) (hin : Holds m inp n.toNat x)
    (hs : inp = out ∨ inp + n.toNat ≤ out ∨ out + n.toNat ≤ inp)
    (hf : ∀ i, i < n.toNat → op.f A (x i) = .ok (y i)) {ps : Fin bs.length → Prog α Unit}
    (hrun : ∀ i, (ps i).run = op.vec A (out + (bs.get i).1) (inp + (bs.get i).1) (bs.get i).2)
    (hacc : ∀ i, (ps i).Within (blockCells inp (bs.get i)) (blockCells out (bs.get i))) :
    ∃ mF, op.vec A out inp n m = .ok ((), mF) ∧ AllSchedules ps m (fun _ => ()) mF := by
  refine ⟨_, C01_unary_scalar A op hn hout hin (by unfold SafePlacement; omega) hf,
    block_threads hcut (fun i j hij c hc => block_reads hcut hs hij hc) hacc fun i => ?_⟩
  have hi := hcut.inside _ (List.get_mem bs i)
  rw [hrun i]
  exact C01_unary_scalar A op (hcut.nonempty _ (List.get_mem bs i)) (Agree.self.alloc hi hout)
    (Agree.self.holds hi hin hs) (safe_block hi hs) fun e he => hf _ (by omega)

theorem C83_unary_simd (t : Target) (E : Env α) (op : UnOp) {m : Mem α} {out inp : Nat} {n : BitVec 32}
    {bs : List Block} {x y : Nat → α} (hn : 0 < n.toNat) (hmul : t.perLine ∣ n.toNat) (hcut : Cuts bs n.toNat)
    (hbm : ∀ b ∈ bs, t.perLine ∣ b.1 ∧ t.perLine ∣ b.2.toNat) (hoal : t.align ∣ out) (hial : t.align ∣ inp)
    (hout : Allocated m out n.toNat) (hin : Holds m inp n.toNat x)
    (hs : inp = out ∨ inp + n.toNat ≤ out ∨ out + n.toNat ≤ inp)
    (hf : ∀ i, i < n.toNat → op.f E.L (x i) = .ok (y i)) {ps : Fin bs.length → Prog α Unit}
    (hrun : ∀ i, (ps i).run = op.vecSimd (t.vec E) (out + (bs.get i).1) (inp + (bs.get i).1) (bs.get i).2)
    (hacc : ∀ i, (ps i).Within (blockCells inp (bs.get i)) (blockCells out (bs.get i))) :
    ∃ mF, op.vecSimd (t.vec E) out inp n m = .ok ((), mF) ∧ AllSchedules ps m (fun _ => ()) mF := by
  refine ⟨_, C01_unary_simd t E op hn hmul hoal hial hout hin (by unfold SafePlacement; omega) hf,
    block_threads hcut (fun i j hij c hc => block_reads hcut hs hij hc) hacc fun i => ?_⟩
  have hb := List.get_mem bs i
  have hi := hcut.inside _ hb
  have hal : t.align ∣ (bs.get i).1 := (align_dvd_perLine t).trans (hbm _ hb).1
  rw [hrun i]
  exact C01_unary_simd t E op (hcut.nonempty _ hb) (hbm _ hb).2 (Nat.dvd_add hoal hal) (Nat.dvd_add hial hal)
    (Agree.self.alloc hi hout) (Agree.self.holds hi hin hs) (safe_block hi hs) fun e he => hf _ (by omega)

theorem apart_reads {out N : Nat} {bs : List Block} (hcut : Cuts bs N) {r : α → α → Nat → α} {a : SArg α}
    (hp : Apart out N a) {i j : Fin bs.length} (hij : i ≠ j) {c : Nat} (hw : blockCells out (bs.get i) c) :
    ¬ argCells (bs.get j).2.toNat (argFrom r (bs.get j).1 a) c := by
  intro h
  obtain ⟨p, rfl, hb⟩ := argFrom_cells h
  exact block_reads hcut hp hij hw hb

theorem C83_binary_scalar (A : Arith α) (op : BinOp) {m : Mem α} {out : Nat} {a b : SArg α}
    {n : BitVec 32} {bs : List Block} {x y : Nat → α} (hn : 0 < n.toNat) (hcut : Cuts bs n.toNat)
    (hout : Allocated m out n.toNat)
    (ha : ScalarSupplies A m out n.toNat a x)
    (hb : ScalarSupplies A m out n.toNat b y)
    (pa : Apart out n.toNat a) (pb : Apart out n.toNat b)
    {ps : Fin bs.length → Prog α Unit}
    (hrun : ∀ i, (ps i).run = op.vec A (out + (bs.get i).1) (argFrom (scalarRamp A) (bs.get i).1 a) (argFrom (scalarRamp A) (bs.get i).1 b) (bs.get i).2)
    (hacc : ∀ i, (ps i).Within (fun j => argCells (bs.get i).2.toNat (argFrom (scalarRamp A) (bs.get i).1 a) j ∨ argCells (bs.get i).2.toNat (argFrom (scalarRamp A) (bs.get i).1 b) j)
      (blockCells out (bs.get i))) :
    ∃ mF, op.vec A out a b n m = .ok ((), mF) ∧ AllSchedules ps m (fun _ => ()) mF := by
  refine ⟨_, C02_binary_scalar A op hn hout ha hb,
    block_threads hcut (fun i j hij c hc => by
      rintro (h | h)
      · exact apart_reads hcut pa hij hc h
      · exact apart_reads hcut pb hij hc h) hacc fun i => ?_⟩
  have hi := hcut.inside _ (List.get_mem bs i)
  rw [hrun i]
  exact C02_binary_scalar A op (hcut.nonempty _ (List.get_mem bs i)) (Agree.self.alloc hi hout)
    (Agree.self.scalar hi ha pa) (Agree.self.scalar hi hb pb)

theorem threads_binary (t : Target) (E : Env α) (op : BinOp) {r : α → α → Nat → α} {m : Mem α} {out : Nat}
    {a b : SArg α} {n : BitVec 32} {bs : List Block} {x y : Nat → α} (hn : 0 < n.toNat)
    (hmul : t.perLine ∣ n.toNat) (hcut : Cuts bs n.toNat) (hbm : ∀ b ∈ bs, t.perLine ∣ b.1 ∧ t.perLine ∣ b.2.toNat)
    (hoal : t.align ∣ out) (hout : Allocated m out n.toNat)
    (ha : SimdSupplies (t.vec E) t.align m out n.toNat a x)
    (hb : SimdSupplies (t.vec E) t.align m out n.toNat b y)
    (pa : Apart out n.toNat a) (pb : Apart out n.toNat b)
    (ca : Continues (t.vec E) r a) (cb : Continues (t.vec E) r b) {ps : Fin bs.length → Prog α Unit}
    (hrun : ∀ i, (ps i).run = op.vecSimd (t.vec E) (out + (bs.get i).1) (argFrom r (bs.get i).1 a) (argFrom r (bs.get i).1 b) (bs.get i).2)
    (hacc : ∀ i, (ps i).Within (fun j => argCells (bs.get i).2.toNat (argFrom r (bs.get i).1 a) j ∨ argCells (bs.get i).2.toNat (argFrom r (bs.get i).1 b) j)
      (blockCells out (bs.get i))) :
    ∃ mF, op.vecSimd (t.vec E) out a b n m = .ok ((), mF) ∧ AllSchedules ps m (fun _ => ()) mF := by
  refine ⟨_, C02_binary_simd t E op hn hmul hoal hout ha hb,
    block_threads hcut (fun i j hij c hc => by
      rintro (h | h)
      · exact apart_reads hcut pa hij hc h
      · exact apart_reads hcut pb hij hc h) hacc fun i => ?_⟩
  have hm := List.get_mem bs i
  have hi := hcut.inside _ hm
  have hal : t.align ∣ (bs.get i).1 := (align_dvd_perLine t).trans (hbm _ hm).1
  rw [hrun i]
  exact C02_binary_simd t E op (hcut.nonempty _ hm) (hbm _ hm).2 (Nat.dvd_add hoal hal) (Agree.self.alloc hi hout)
    (Agree.self.simd hi hal ha pa ca) (Agree.self.simd hi hal hb pb cb)

/-- Buffers and numbers as arguments, in any arithmetic. -/
theorem C83_binary_simd (t : Target) (E : Env α) (op : BinOp) (r : α → α → Nat → α) {m : Mem α} {out : Nat}
    {a b : SArg α} {n : BitVec 32} {bs : List Block} {x y : Nat → α} (hn : 0 < n.toNat)
    (hmul : t.perLine ∣ n.toNat) (hcut : Cuts bs n.toNat) (hbm : ∀ b ∈ bs, t.perLine ∣ b.1 ∧ t.perLine ∣ b.2.toNat)
    (hoal : t.align ∣ out) (hout : Allocated m out n.toNat)
    (ha : SimdSupplies (t.vec E) t.align m out n.toNat a x)
    (hb : SimdSupplies (t.vec E) t.align m out n.toNat b y)
    (pa : Apart out n.toNat a) (pb : Apart out n.toNat b)
    (ca : Steady a) (cb : Steady b) {ps : Fin bs.length → Prog α Unit}
    (hrun : ∀ i, (ps i).run = op.vecSimd (t.vec E) (out + (bs.get i).1) (argFrom r (bs.get i).1 a) (argFrom r (bs.get i).1 b) (bs.get i).2)
    (hacc : ∀ i, (ps i).Within (fun j => argCells (bs.get i).2.toNat (argFrom r (bs.get i).1 a) j ∨ argCells (bs.get i).2.toNat (argFrom r (bs.get i).1 b) j)
      (blockCells out (bs.get i))) :
    ∃ mF, op.vecSimd (t.vec E) out a b n m = .ok ((), mF) ∧ AllSchedules ps m (fun _ => ()) mF :=
  threads_binary t E op hn hmul hcut hbm hoal hout ha hb pa pb (steady_continues ca) (steady_continues cb)
    hrun hacc

/-- Any arguments, in exact arithmetic. -/
theorem C83_binary_exact [CommRing α] (t : Target) (E : Env α) (hE : E.Exact) (op : BinOp) {m : Mem α} {out : Nat}
    {a b : SArg α} {n : BitVec 32} {bs : List Block} {x y : Nat → α} (hn : 0 < n.toNat)
    (hmul : t.perLine ∣ n.toNat) (hcut : Cuts bs n.toNat) (hbm : ∀ b ∈ bs, t.perLine ∣ b.1 ∧ t.perLine ∣ b.2.toNat)
    (hoal : t.align ∣ out) (hout : Allocated m out n.toNat)
    (ha : SimdSupplies (t.vec E) t.align m out n.toNat a x)
    (hb : SimdSupplies (t.vec E) t.align m out n.toNat b y)
    (pa : Apart out n.toNat a) (pb : Apart out n.toNat b)
    {ps : Fin bs.length → Prog α Unit}
    (hrun : ∀ i, (ps i).run = op.vecSimd (t.vec E) (out + (bs.get i).1) (argFrom exactRamp (bs.get i).1 a) (argFrom exactRamp (bs.get i).1 b) (bs.get i).2)
    (hacc : ∀ i, (ps i).Within (fun j => argCells (bs.get i).2.toNat (argFrom exactRamp (bs.get i).1 a) j ∨ argCells (bs.get i).2.toNat (argFrom exactRamp (bs.get i).1 b) j)
      (blockCells out (bs.get i))) :
    ∃ mF, op.vecSimd (t.vec E) out a b n m = .ok ((), mF) ∧ AllSchedules ps m (fun _ => ()) mF :=
  threads_binary t E op hn hmul hcut hbm hoal hout ha hb pa pb (exact_continues t E hE a) (exact_continues t E hE b)
    hrun hacc

theorem C83_ternary_scalar (A : Arith α) (op : TerOp) {m : Mem α} {out : Nat} {a b c : SArg α}
    {n : BitVec 32} {bs : List Block} {x y z : Nat → α} (hn : 0 < n.toNat) (hcut : Cuts bs n.toNat)
    (hout : Allocated m out n.toNat)
    (ha : ScalarSupplies A m out n.toNat a x)
    (hb : ScalarSupplies A m out n.toNat b y)
    (hc : ScalarSupplies A m out n.toNat c z)
    (pa : Apart out n.toNat a) (pb : Apart out n.toNat b) (pc : Apart out n.toNat c)
    {ps : Fin bs.length → Prog α Unit}
    (hrun : ∀ i, (ps i).run = op.vec A (out + (bs.get i).1) (argFrom (scalarRamp A) (bs.get i).1 a) (argFrom (scalarRamp A) (bs.get i).1 b) (argFrom (scalarRamp A) (bs.get i).1 c) (bs.get i).2)
    (hacc : ∀ i, (ps i).Within (fun j => argCells (bs.get i).2.toNat (argFrom (scalarRamp A) (bs.get i).1 a) j ∨ argCells (bs.get i).2.toNat (argFrom (scalarRamp A) (bs.get i).1 b) j ∨ argCells (bs.get i).2.toNat (argFrom (scalarRamp A) (bs.get i).1 c) j)
      (blockCells out (bs.get i))) :
    ∃ mF, op.vec A out a b c n m = .ok ((), mF) ∧ AllSchedules ps m (fun _ => ()) mF := by
  refine ⟨_, C03_ternary_scalar A op hn hout ha hb hc,
    block_threads hcut (fun i j hij c hc => by
      rintro (h | h | h)
      · exact apart_reads hcut pa hij hc h
      · exact apart_reads hcut pb hij hc h
      · exact apart_reads hcut pc hij hc h) hacc fun i => ?_⟩
  have hi := hcut.inside _ (List.get_mem bs i)
  rw [hrun i]
  exact C03_ternary_scalar A op (hcut.nonempty _ (List.get_mem bs i)) (Agree.self.alloc hi hout)
    (Agree.self.scalar hi ha pa) (Agree.self.scalar hi hb pb) (Agree.self.scalar hi hc pc)

theorem threads_ternary (t : Target) (E : Env α) (op : TerOp) {r : α → α → Nat → α} {m : Mem α} {out : Nat}
    {a b c : SArg α} {n : BitVec 32} {bs : List Block} {x y z : Nat → α} (hn : 0 < n.toNat)
    (hmul : t.perLine ∣ n.toNat) (hcut : Cuts bs n.toNat) (hbm : ∀ b ∈ bs, t.perLine ∣ b.1 ∧ t.perLine ∣ b.2.toNat)
    (hoal : t.align ∣ out) (hout : Allocated m out n.toNat)
    (ha : SimdSupplies (t.vec E) t.align m out n.toNat a x)
    (hb : SimdSupplies (t.vec E) t.align m out n.toNat b y)
    (hc : SimdSupplies (t.vec E) t.align m out n.toNat c z)
    (pa : Apart out n.toNat a) (pb : Apart out n.toNat b) (pc : Apart out n.toNat c)
    (ca : Continues (t.vec E) r a) (cb : Continues (t.vec E) r b) (cc : Continues (t.vec E) r c) {ps : Fin bs.length → Prog α Unit}
    (hrun : ∀ i, (ps i).run = op.vecSimd (t.vec E) (out + (bs.get i).1) (argFrom r (bs.get i).1 a) (argFrom r (bs.get i).1 b) (argFrom r (bs.get i).1 c) (bs.get i).2)
    (hacc : ∀ i, (ps i).Within (fun j => argCells (bs.get i).2.toNat (argFrom r (bs.get i).1 a) j ∨ argCells (bs.get i).2.toNat (argFrom r (bs.get i).1 b) j ∨ argCells (bs.get i).2.toNat (argFrom r (bs.get i).1 c) j)
      (blockCells out (bs.get i))) :
    ∃ mF, op.vecSimd (t.vec E) out a b c n m = .ok ((), mF) ∧ AllSchedules ps m (fun _ => ()) mF := by
  refine ⟨_, C03_ternary_simd t E op hn hmul hoal hout ha hb hc,
    block_threads hcut (fun i j hij c hc => by
      rintro (h | h | h)
      · exact apart_reads hcut pa hij hc h
      · exact apart_reads hcut pb hij hc h
      · exact apart_reads hcut pc hij hc h) hacc fun i => ?_⟩
  have hm := List.get_mem bs i
  have hi := hcut.inside _ hm
  have hal : t.align ∣ (bs.get i).1 := (align_dvd_perLine t).trans (hbm _ hm).1
  rw [hrun i]
  exact C03_ternary_simd t E op (hcut.nonempty _ hm) (hbm _ hm).2 (Nat.dvd_add hoal hal) (Agree.self.alloc hi hout)
    (Agree.self.simd hi hal ha pa ca) (Agree.self.simd hi hal hb pb cb) (Agree.self.simd hi hal hc pc cc)

/-- Buffers and numbers as arguments, in any arithmetic. -/
theorem C83_ternary_simd (t : Target) (E : Env α) (op : TerOp) (r : α → α → Nat → α) {m : Mem α} {out : Nat}
    {a b c : SArg α} {n : BitVec 32} {bs : List Block} {x y z : Nat → α} (hn : 0 < n.toNat)
    (hmul : t.perLine ∣ n.toNat) (hcut : Cuts bs n.toNat) (hbm : ∀ b ∈ bs, t.perLine ∣ b.1 ∧ t.perLine ∣ b.2.toNat)
    (hoal : t.align ∣ out) (hout : Allocated m out n.toNat)
    (ha : SimdSupplies (t.vec E) t.align m out n.toNat a x)
    (hb : SimdSupplies (t.vec E) t.align m out n.toNat b y)
    (hc : SimdSupplies (t.vec E) t.align m out n.toNat c z)
    (pa : Apart out n.toNat a) (pb : Apart out n.toNat b) (pc : Apart out n.toNat c)
    (ca : Steady a) (cb : Steady b) (cc : Steady c) {ps : Fin bs.length → Prog α Unit}
    (hrun : ∀ i, (ps i).run = op.vecSimd (t.vec E) (out + (bs.get i).1) (argFrom r (bs.get i).1 a) (argFrom r (bs.get i).1 b) (argFrom r (bs.get i).1 c) (bs.get i).2)
    (hacc : ∀ i, (ps i).Within (fun j => argCells (bs.get i).2.toNat (argFrom r (bs.get i).1 a) j ∨ argCells (bs.get i).2.toNat (argFrom r (bs.get i).1 b) j ∨ argCells (bs.get i).2.toNat (argFrom r (bs.get i).1 c) j)
      (blockCells out (bs.get i))) :
    ∃ mF, op.vecSimd (t.vec E) out a b c n m = .ok ((), mF) ∧ AllSchedules ps m (fun _ => ()) mF :=
  threads_ternary t E op hn hmul hcut hbm hoal hout ha hb hc pa pb pc (steady_continues ca) (steady_continues cb) (steady_continues cc)
    hrun hacc

/-- Any arguments, in exact arithmetic. -/
theorem C83_ternary_exact [CommRing α] (t : Target) (E : Env α) (hE : E.Exact) (op : TerOp) {m : Mem α} {out : Nat}
    {a b c : SArg α} {n : BitVec 32} {bs : List Block} {x y z : Nat → α} (hn : 0 < n.toNat)
    (hmul : t.perLine ∣ n.toNat) (hcut : Cuts bs n.toNat) (hbm : ∀ b ∈ bs, t.perLine ∣ b.1 ∧ t.perLine ∣ b.2.toNat)
    (hoal : t.align ∣ out) (hout : Allocated m out n.toNat)
    (ha : SimdSupplies (t.vec E) t.align m out n.toNat a x)
    (hb : SimdSupplies (t.vec E) t.align m out n.toNat b y)
    (hc : SimdSupplies (t.vec E) t.align m out n.toNat c z)
    (pa : Apart out n.toNat a) (pb : Apart out n.toNat b) (pc : Apart out n.toNat c)
    {ps : Fin bs.length → Prog α Unit}
    (hrun : ∀ i, (ps i).run = op.vecSimd (t.vec E) (out + (bs.get i).1) (argFrom exactRamp (bs.get i).1 a) (argFrom exactRamp (bs.get i).1 b) (argFrom exactRamp (bs.get i).1 c) (bs.get i).2)
    (hacc : ∀ i, (ps i).Within (fun j => argCells (bs.get i).2.toNat (argFrom exactRamp (bs.get i).1 a) j ∨ argCells (bs.get i).2.toNat (argFrom exactRamp (bs.get i).1 b) j ∨ argCells (bs.get i).2.toNat (argFrom exactRamp (bs.get i).1 c) j)
      (blockCells out (bs.get i))) :
    ∃ mF, op.vecSimd (t.vec E) out a b c n m = .ok ((), mF) ∧ AllSchedules ps m (fun _ => ()) mF :=
  threads_ternary t E op hn hmul hcut hbm hoal hout ha hb hc pa pb pc (exact_continues t E hE a) (exact_continues t E hE b) (exact_continues t E hE c)
    hrun hacc

theorem C83_quad_scalar (A : Arith α) (op : QuadOp) {m : Mem α} {out : Nat} {a b c d : SArg α}
    {n : BitVec 32} {bs : List Block} {x y z u : Nat → α} (hn : 0 < n.toNat) (hcut : Cuts bs n.toNat)
    (hout : Allocated m out n.toNat)
    (ha : ScalarSupplies A m out n.toNat a x)
    (hb : ScalarSupplies A m out n.toNat b y)
    (hc : ScalarSupplies A m out n.toNat c z)
    (hd : ScalarSupplies A m out n.toNat d u)
    (pa : Apart out n.toNat a) (pb : Apart out n.toNat b) (pc : Apart out n.toNat c) (pd : Apart out n.toNat d)
    {ps : Fin bs.length → Prog α Unit}
    (hrun : ∀ i, (ps i).run = op.vec A (out + (bs.get i).1) (argFrom (scalarRamp A) (bs.get i).1 a) (argFrom (scalarRamp A) (bs.get i).1 b) (argFrom (scalarRamp A) (bs.get i).1 c) (argFrom (scalarRamp A) (bs.get i).1 d) (bs.get i).2)
    (hacc : ∀ i, (ps i).Within (fun j => argCells (bs.get i).2.toNat (argFrom (scalarRamp A) (bs.get i).1 a) j ∨ argCells (bs.get i).2.toNat (argFrom (scalarRamp A) (bs.get i).1 b) j ∨ argCells (bs.get i).2.toNat (argFrom (scalarRamp A) (bs.get i).1 c) j ∨ argCells (bs.get i).2.toNat (argFrom (scalarRamp A) (bs.get i).1 d) j)
      (blockCells out (bs.get i))) :
    ∃ mF, op.vec A out a b c d n m = .ok ((), mF) ∧ AllSchedules ps m (fun _ => ()) mF := by
  refine ⟨_, C04_quad_scalar A op hn hout ha hb hc hd,
    block_threads hcut (fun i j hij c hc => by
      rintro (h | h | h | h)
      · exact apart_reads hcut pa hij hc h
      · exact apart_reads hcut pb hij hc h
      · exact apart_reads hcut pc hij hc h
      · exact apart_reads hcut pd hij hc h) hacc fun i => ?_⟩
  have hi := hcut.inside _ (List.get_mem bs i)
  rw [hrun i]
  exact C04_quad_scalar A op (hcut.nonempty _ (List.get_mem bs i)) (Agree.self.alloc hi hout)
    (Agree.self.scalar hi ha pa) (Agree.self.scalar hi hb pb) (Agree.self.scalar hi hc pc) (Agree.self.scalar hi hd pd)

theorem threads_quad (t : Target) (E : Env α) (op : QuadOp) {r : α → α → Nat → α} {m : Mem α} {out : Nat}
    {a b c d : SArg α} {n : BitVec 32} {bs : List Block} {x y z u : Nat → α} (hn : 0 < n.toNat)
    (hmul : t.perLine ∣ n.toNat) (hcut : Cuts bs n.toNat) (hbm : ∀ b ∈ bs, t.perLine ∣ b.1 ∧ t.perLine ∣ b.2.toNat)
    (hoal : t.align ∣ out) (hout : Allocated m out n.toNat)
    (ha : SimdSupplies (t.vec E) t.align m out n.toNat a x)
    (hb : SimdSupplies (t.vec E) t.align m out n.toNat b y)
    (hc : SimdSupplies (t.vec E) t.align m out n.toNat c z)
    (hd : SimdSupplies (t.vec E) t.align m out n.toNat d u)
    (pa : Apart out n.toNat a) (pb : Apart out n.toNat b) (pc : Apart out n.toNat c) (pd : Apart out n.toNat d)
    (ca : Continues (t.vec E) r a) (cb : Continues (t.vec E) r b) (cc : Continues (t.vec E) r c) (cd : Continues (t.vec E) r d) {ps : Fin bs.length → Prog α Unit}
    (hrun : ∀ i, (ps i).run = op.vecSimd (t.vec E) (out + (bs.get i).1) (argFrom r (bs.get i).1 a) (argFrom r (bs.get i).1 b) (argFrom r (bs.get i).1 c) (argFrom r (bs.get i).1 d) (bs.get i).2)
    (hacc : ∀ i, (ps i).Within (fun j => argCells (bs.get i).2.toNat (argFrom r (bs.get i).1 a) j ∨ argCells (bs.get i).2.toNat (argFrom r (bs.get i).1 b) j ∨ argCells (bs.get i).2.toNat (argFrom r (bs.get i).1 c) j ∨ argCells (bs.get i).2.toNat (argFrom r (bs.get i).1 d) j)
      (blockCells out (bs.get i))) :
    ∃ mF, op.vecSimd (t.vec E) out a b c d n m = .ok ((), mF) ∧ AllSchedules ps m (fun _ => ()) mF := by
  refine ⟨_, C04_quad_simd t E op hn hmul hoal hout ha hb hc hd,
    block_threads hcut (fun i j hij c hc => by
      rintro (h | h | h | h)
      · exact apart_reads hcut pa hij hc h
      · exact apart_reads hcut pb hij hc h
      · exact apart_reads hcut pc hij hc h
      · exact apart_reads hcut pd hij hc h) hacc fun i => ?_⟩
  have hm := List.get_mem bs i
  have hi := hcut.inside _ hm
  have hal : t.align ∣ (bs.get i).1 := (align_dvd_perLine t).trans (hbm _ hm).1
  rw [hrun i]
  exact C04_quad_simd t E op (hcut.nonempty _ hm) (hbm _ hm).2 (Nat.dvd_add hoal hal) (Agree.self.alloc hi hout)
    (Agree.self.simd hi hal ha pa ca) (Agree.self.simd hi hal hb pb cb) (Agree.self.simd hi hal hc pc cc) (Agree.self.simd hi hal hd pd cd)

/-- Buffers and numbers as arguments, in any arithmetic. -/
theorem C83_quad_simd (t : Target) (E : Env α) (op : QuadOp) (r : α → α → Nat → α) {m : Mem α} {out : Nat}
    {a b c d : SArg α} {n : BitVec 32} {bs : List Block} {x y z u : Nat → α} (hn : 0 < n.toNat)
    (hmul : t.perLine ∣ n.toNat) (hcut : Cuts bs n.toNat) (hbm : ∀ b ∈ bs, t.perLine ∣ b.1 ∧ t.perLine ∣ b.2.toNat)
    (hoal : t.align ∣ out) (hout : Allocated m out n.toNat)
    (ha : SimdSupplies (t.vec E) t.align m out n.toNat a x)
    (hb : SimdSupplies (t.vec E) t.align m out n.toNat b y)
    (hc : SimdSupplies (t.vec E) t.align m out n.toNat c z)
    (hd : SimdSupplies (t.vec E) t.align m out n.toNat d u)
    (pa : Apart out n.toNat a) (pb : Apart out n.toNat b) (pc : Apart out n.toNat c) (pd : Apart out n.toNat d)
    (ca : Steady a) (cb : Steady b) (cc : Steady c) (cd : Steady d) {ps : Fin bs.length → Prog α Unit}
    (hrun : ∀ i, (ps i).run = op.vecSimd (t.vec E) (out + (bs.get i).1) (argFrom r (bs.get i).1 a) (argFrom r (bs.get i).1 b) (argFrom r (bs.get i).1 c) (argFrom r (bs.get i).1 d) (bs.get i).2)
    (hacc : ∀ i, (ps i).Within (fun j => argCells (bs.get i).2.toNat (argFrom r (bs.get i).1 a) j ∨ argCells (bs.get i).2.toNat (argFrom r (bs.get i).1 b) j ∨ argCells (bs.get i).2.toNat (argFrom r (bs.get i).1 c) j ∨ argCells (bs.get i).2.toNat (argFrom r (bs.get i).1 d) j)
      (blockCells out (bs.get i))) :
    ∃ mF, op.vecSimd (t.vec E) out a b c d n m = .ok ((), mF) ∧ AllSchedules ps m (fun _ => ()) mF :=
  threads_quad t E op hn hmul hcut hbm hoal hout ha hb hc hd pa pb pc pd (steady_continues ca) (steady_continues cb) (steady_continues cc) (steady_continues cd)
    hrun hacc

/-- Any arguments, in exact arithmetic. -/
theorem C83_quad_exact [CommRing α] (t : Target) (E : Env α) (hE : E.Exact) (op : QuadOp) {m : Mem α} {out : Nat}
    {a b c d : SArg α} {n : BitVec 32} {bs : List Block} {x y z u : Nat → α} (hn : 0 < n.toNat)
    (hmul : t.perLine ∣ n.toNat) (hcut : Cuts bs n.toNat) (hbm : ∀ b ∈ bs, t.perLine ∣ b.1 ∧ t.perLine ∣ b.2.toNat)
    (hoal : t.align ∣ out) (hout : Allocated m out n.toNat)
    (ha : SimdSupplies (t.vec E) t.align m out n.toNat a x)
    (hb : SimdSupplies (t.vec E) t.align m out n.toNat b y)
    (hc : SimdSupplies (t.vec E) t.align m out n.toNat c z)
    (hd : SimdSupplies (t.vec E) t.align m out n.toNat d u)
    (pa : Apart out n.toNat a) (pb : Apart out n.toNat b) (pc : Apart out n.toNat c) (pd : Apart out n.toNat d)
    {ps : Fin bs.length → Prog α Unit}
    (hrun : ∀ i, (ps i).run = op.vecSimd (t.vec E) (out + (bs.get i).1) (argFrom exactRamp (bs.get i).1 a) (argFrom exactRamp (bs.get i).1 b) (argFrom exactRamp (bs.get i).1 c) (argFrom exactRamp (bs.get i).1 d) (bs.get i).2)
    (hacc : ∀ i, (ps i).Within (fun j => argCells (bs.get i).2.toNat (argFrom exactRamp (bs.get i).1 a) j ∨ argCells (bs.get i).2.toNat (argFrom exactRamp (bs.get i).1 b) j ∨ argCells (bs.get i).2.toNat (argFrom exactRamp (bs.get i).1 c) j ∨ argCells (bs.get i).2.toNat (argFrom exactRamp (bs.get i).1 d) j)
      (blockCells out (bs.get i))) :
    ∃ mF, op.vecSimd (t.vec E) out a b c d n m = .ok ((), mF) ∧ AllSchedules ps m (fun _ => ()) mF :=
  threads_quad t E op hn hmul hcut hbm hoal hout ha hb hc hd pa pb pc pd (exact_continues t E hE a) (exact_continues t E hE b) (exact_continues t E hE c) (exact_continues t E hE d)
    hrun hacc

/-! ## The hypotheses are satisfiable -/
section examples
open Examples

theorem two_blocks : Cuts [(8, 8#32), (0, 8#32)] 16 := by
  refine ⟨by decide, by decide, ?_, fun i hi => ?_⟩
  · refine List.pairwise_cons.mpr ⟨fun c hc i h1 h2 => ?_,
      List.pairwise_cons.mpr ⟨fun c hc => absurd hc List.not_mem_nil, List.Pairwise.nil⟩⟩
    have e : (8#32).toNat = 8 := rfl
    simp only [List.mem_cons, List.not_mem_nil, or_false] at hc
    subst hc
    simp only [Block.Has, e] at h1 h2
    omega
  · by_cases h1 : i < 8
    · exact ⟨(0, 8#32), by simp, Nat.zero_le _, by simpa using h1⟩
    · exact ⟨(8, 8#32), by simp, by simpa using Nat.le_of_not_lt h1, by simpa using hi⟩

/-- Two threads add 7 in place to the two halves of a buffer of 16 `double`s (SSE2).  Programs that make the
accesses of the calls exist, and every schedule of any such programs gives the result of the single call. -/
example :
    (∃ ps : Fin 2 → Prog Int Unit,
      (∀ i, (ps i).run = BinOp.plus.vecSimd (Target.sse2.vec intEnv) (0 + ([(8, 8#32), (0, 8#32)].get i).1)
        (argFrom (fun b _ _ => b) ([(8, 8#32), (0, 8#32)].get i).1 (.ptr 0))
        (argFrom (fun b _ _ => b) ([(8, 8#32), (0, 8#32)].get i).1 (.scalar 7)) ([(8, 8#32), (0, 8#32)].get i).2) ∧
      ∃ mF, BinOp.plus.vecSimd (Target.sse2.vec intEnv) 0 (.ptr 0) (.scalar 7) 16#32 (ramp 16) = .ok ((), mF) ∧
        AllSchedules ps (ramp 16) (fun _ => ()) mF) := by
  have h : ∀ i : Fin 2, ∃ p : Prog Int Unit,
      p.run = BinOp.plus.vecSimd (Target.sse2.vec intEnv) (0 + ([(8, 8#32), (0, 8#32)].get i).1)
        (argFrom (fun b _ _ => b) ([(8, 8#32), (0, 8#32)].get i).1 (.ptr 0))
        (argFrom (fun b _ _ => b) ([(8, 8#32), (0, 8#32)].get i).1 (.scalar 7)) ([(8, 8#32), (0, 8#32)].get i).2 ∧ _ :=
    fun i => C83_accesses_binary_simd .sse2 intEnv .plus
      (by revert i; decide) (by revert i; decide) (by revert i; decide)
      (by show (Target.sse2.align) ∣ 0 + ([(8, 8#32), (0, 8#32)].get i).1; revert i; decide) trivial
  choose ps hrun hacc using h
  exact ⟨ps, hrun, C83_binary_simd .sse2 intEnv .plus _ (n := 16#32) (m := ramp 16) (out := 0) (a := .ptr 0)
    (b := .scalar 7) (bs := [(8, 8#32), (0, 8#32)])
    (x := fun i => 10 * (i : Int) - 100) (y := fun _ => 7)
    (by decide) (by decide) two_blocks (by decide) (by decide) (by unfold Allocated; decide)
    ⟨by decide, by unfold Holds; decide, Or.inl (by decide)⟩ (fun _ _ => rfl) (Or.inl rfl) trivial trivial trivial
    hrun hacc⟩

end examples

end Nova
