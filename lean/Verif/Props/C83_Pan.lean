import Verif.Props.C82_OtherCalls
import Verif.Props.C82_PanMeters

/-!
# C83 for the pan functions, and C82 for `copyvec_simd`
-/

namespace Nova
open Spec
variable {α : Type}

/-- `copyvec_simd` block after block, in any order.  The read past the end of each block (C19) must be allowed:
`size` elements after the source buffer are readable. -/
theorem C82_order_copyvec_simd_partial (t : Target) (E : Env α) (v : CopyVariant) {dest src : Nat} {m : Mem α}
    {n : BitVec 32} {bs : List Block} {x : Nat → α} (hn : 0 < n.toNat) (hmul : t.perLine ∣ n.toNat)
    (hcut : Cuts bs n.toNat) (hbm : ∀ b ∈ bs, t.perLine ∣ b.1 ∧ t.perLine ∣ b.2.toNat)
    (hs : t.AddrOk v.srcAligned src) (hd : t.AddrOk v.dstAligned dest)
    (hsrc : Holds m src n.toNat x) (hread : Allocated m src (n.toNat + t.size))
    (hout : Allocated m dest n.toNat) (hp : src = dest ∨ src + n.toNat ≤ dest ∨ dest + n.toNat ≤ src) :
    inOrder (fun o k => copyvecSimd' (t.vec E) v (dest + o) (src + o) k) bs m
      = copyvecSimd' (t.vec E) v dest src n m := by
  rw [C18_copyvec_simd_partial t E v hn hmul hs hd hsrc hread hout (by unfold SafePlacement; omega)]
  refine inOrder_ok hcut fun b h m' ag => ?_
  have hi := hcut.inside b h
  have hal : t.align ∣ b.1 := (align_dvd_perLine t).trans (hbm b h).1
  refine C18_copyvec_simd_partial t E v (hcut.nonempty b h) (hbm b h).2 (fun h' => Nat.dvd_add (hs h') hal)
    (fun h' => Nat.dvd_add (hd h') hal) (ag.holds hi hsrc hp) (fun i hi' => ?_) (ag.alloc hi hout) (safe_block hi hp)
  rcases ag (src + b.1 + i) with h | h
  · rw [h, Nat.add_assoc]
    exact hread _ (by omega)
  · exact h.2.2

/-! ## Panning in several threads -/

theorem block_threads2 {bs : List Block} {N out0 out1 inp : Nat} (hcut : Cuts bs N) {m : Mem α} {y0 y1 : Nat → α}
    (hd2 : Disjoint2 out0 out1 N) (p0 : inp = out0 ∨ inp + N ≤ out0 ∨ out0 + N ≤ inp)
    (p1 : inp = out1 ∨ inp + N ≤ out1 ∨ out1 + N ≤ inp) {ps : Fin bs.length → Prog α Unit}
    (hw : ∀ i, (ps i).Within (blockCells inp (bs.get i))
      fun c => blockCells out0 (bs.get i) c ∨ blockCells out1 (bs.get i) c)
    (hr : ∀ i, (ps i).run m = .ok ((), overwrite (overwrite m (out0 + (bs.get i).1) (bs.get i).2.toNat
      fun e => y0 ((bs.get i).1 + e)) (out1 + (bs.get i).1) (bs.get i).2.toNat fun e => y1 ((bs.get i).1 + e))) :
    AllSchedules ps m (fun _ => ()) (overwrite (overwrite m out0 N y0) out1 N y1) := by
  unfold Disjoint2 at hd2
  have hin := fun i => hcut.inside _ (List.get_mem bs i)
  refine C83_threads (W := fun i c => blockCells out0 (bs.get i) c ∨ blockCells out1 (bs.get i) c)
    (fun i j hij c hc => ?_) hw hr (fun i c hc => ?_) fun c hc => ?_
  · have hi := hin i
    have hj := hin j
    rcases hc with hc | hc
    · refine ⟨block_reads hcut p0 hij hc, ?_⟩
      rintro (h | h)
      · exact block_writes hcut hij hc h
      · unfold blockCells bufCells at hc h
        omega
    · refine ⟨block_reads hcut p1 hij hc, ?_⟩
      rintro (h | h)
      · unfold blockCells bufCells at hc h
        omega
      · exact block_writes hcut hij hc h
  · have hi := hin i
    unfold blockCells bufCells at hc
    unfold overwrite
    rcases hc with hc | hc
    · rw [if_neg (show ¬ (out1 ≤ c ∧ c < out1 + N) by omega), if_pos (show out0 ≤ c ∧ c < out0 + N by omega),
        if_neg (show ¬ (out1 + (bs.get i).1 ≤ c ∧ c < out1 + (bs.get i).1 + (bs.get i).2.toNat) by omega), if_pos hc]
      congr 2
      omega
    · rw [if_pos (show out1 ≤ c ∧ c < out1 + N by omega), if_pos hc]
      congr 2
      omega
  · have key : ∀ out, ¬ (out ≤ c ∧ c < out + N) ∨ ∃ i, blockCells out (bs.get i) c := by
      intro out
      by_cases h : out ≤ c ∧ c < out + N
      · obtain ⟨b, hb, hh⟩ := hcut.cover (c - out) (by omega)
        obtain ⟨i, rfl⟩ := List.get_of_mem hb
        refine Or.inr ⟨i, ?_⟩
        unfold Block.Has at hh
        unfold blockCells bufCells
        omega
      · exact Or.inl h
    unfold overwrite
    rcases key out0 with h0 | ⟨i, h0⟩
    · rcases key out1 with h1 | ⟨i, h1⟩
      · rw [if_neg h1, if_neg h0]
      · exact absurd (Or.inr h1) (hc i)
    · exact absurd (Or.inl h0) (hc i)

section pan
variable {m : Mem α} {out0 out1 inp : Nat} {f0 s0 f1 s1 : α} {n : BitVec 32} {bs : List Block} {x : Nat → α}

theorem Agree2.self {out0 out1 N o k : Nat} : Agree2 m m out0 out1 N o k := fun _ => Or.inl rfl

variable {ps : Fin bs.length → Prog α Unit}
  (hw : ∀ i, (ps i).Within (blockCells inp (bs.get i))
      fun c => blockCells out0 (bs.get i) c ∨ blockCells out1 (bs.get i) c)
  (hcut : Cuts bs n.toNat) (hn : 0 < n.toNat)
  (hdis : Disjoint2 out0 out1 n.toNat) (hin : Holds m inp n.toNat x) (h0 : Allocated m out0 n.toNat)
  (h1 : Allocated m out1 n.toNat) (p0 : inp = out0 ∨ inp + n.toNat ≤ out0 ∨ out0 + n.toNat ≤ inp)
  (p1 : inp = out1 ∨ inp + n.toNat ≤ out1 ∨ out1 + n.toNat ≤ inp)
include hw hcut hn hdis hin h0 h1 p0 p1

theorem C83_pan2 (E : Env α)
    (hrun : ∀ i, (ps i).run = pan2Vec E (out0 + (bs.get i).1) (out1 + (bs.get i).1) (inp + (bs.get i).1) f0 f1
      (bs.get i).2) :
    ∃ mF, pan2Vec E out0 out1 inp f0 f1 n m = .ok ((), mF) ∧ AllSchedules ps m (fun _ => ()) mF := by
  refine ⟨_, C21_pan2_scalar E hn hdis hin h0 h1 (by unfold SafePlacement; omega) (by unfold SafePlacement; omega),
    block_threads2 hcut hdis p0 p1 hw fun i => ?_⟩
  rw [hrun i]
  have h := List.get_mem bs i
  generalize bs.get i = b at h ⊢
  have hi := hcut.inside b h
  have ag : Agree2 m m out0 out1 n.toNat b.1 b.2.toNat := Agree2.self
  exact C21_pan2_scalar E (hcut.nonempty b h) (disjoint_block hdis hi) (ag.holds hi hin p0 p1)
    (ag.alloc0 hi h0) (ag.alloc1 hi h1) (safe_block hi p0) (safe_block hi p1)

theorem C83_pan2_simd (t : Target) (E : Env α) (hmul : t.perLine ∣ n.toNat)
    (hbm : ∀ b ∈ bs, t.perLine ∣ b.1 ∧ t.perLine ∣ b.2.toNat)
    (a0 : t.align ∣ out0) (a1 : t.align ∣ out1) (ai : t.align ∣ inp)
    (hrun : ∀ i, (ps i).run = pan2VecSimd (t.vec E) (out0 + (bs.get i).1) (out1 + (bs.get i).1) (inp + (bs.get i).1)
      f0 f1 (bs.get i).2) :
    ∃ mF, pan2VecSimd (t.vec E) out0 out1 inp f0 f1 n m = .ok ((), mF) ∧ AllSchedules ps m (fun _ => ()) mF := by
  refine ⟨_, C21_pan2_simd t E hn hmul a0 a1 ai hdis hin h0 h1 (by unfold SafePlacement; omega)
    (by unfold SafePlacement; omega), block_threads2 hcut hdis p0 p1 hw fun i => ?_⟩
  rw [hrun i]
  have h := List.get_mem bs i
  generalize bs.get i = b at h ⊢
  have hi := hcut.inside b h
  have hal : t.align ∣ b.1 := (align_dvd_perLine t).trans (hbm b h).1
  have ag : Agree2 m m out0 out1 n.toNat b.1 b.2.toNat := Agree2.self
  exact C21_pan2_simd t E (hcut.nonempty b h) (hbm b h).2 (Nat.dvd_add a0 hal) (Nat.dvd_add a1 hal)
    (Nat.dvd_add ai hal) (disjoint_block hdis hi) (ag.holds hi hin p0 p1)
    (ag.alloc0 hi h0) (ag.alloc1 hi h1) (safe_block hi p0) (safe_block hi p1)

theorem C83_pan2_ramp (E : Env α)
    (hrun : ∀ i, (ps i).run = pan2VecRamp E (out0 + (bs.get i).1) (out1 + (bs.get i).1) (inp + (bs.get i).1)
      (scalarRamp E.S f0 s0 (bs.get i).1) s0 (scalarRamp E.S f1 s1 (bs.get i).1) s1 (bs.get i).2) :
    ∃ mF, pan2VecRamp E out0 out1 inp f0 s0 f1 s1 n m = .ok ((), mF) ∧ AllSchedules ps m (fun _ => ()) mF := by
  refine ⟨_, C22_any_scalar E hn hdis hin h0 h1 (by unfold SafePlacement; omega) (by unfold SafePlacement; omega),
    block_threads2 hcut hdis p0 p1 hw fun i => ?_⟩
  rw [hrun i]
  have h := List.get_mem bs i
  generalize bs.get i = b at h ⊢
  have hi := hcut.inside b h
  have ag : Agree2 m m out0 out1 n.toNat b.1 b.2.toNat := Agree2.self
  have := C22_any_scalar E (f0 := scalarRamp E.S f0 s0 b.1) (s0 := s0) (f1 := scalarRamp E.S f1 s1 b.1) (s1 := s1)
    (hcut.nonempty b h) (disjoint_block hdis hi) (ag.holds hi hin p0 p1)
    (ag.alloc0 hi h0) (ag.alloc1 hi h1) (safe_block hi p0) (safe_block hi p1)
  simp only [scalarRamp_add] at this
  exact this

theorem C83_pan2_ramp_simd [CommRing α] (t : Target) (E : Env α) (hE : E.Exact) (hmul : t.perLine ∣ n.toNat)
    (hbm : ∀ b ∈ bs, t.perLine ∣ b.1 ∧ t.perLine ∣ b.2.toNat)
    (a0 : t.align ∣ out0) (a1 : t.align ∣ out1) (ai : t.align ∣ inp)
    (hrun : ∀ i, (ps i).run = pan2VecRampSimd (t.vec E) (out0 + (bs.get i).1) (out1 + (bs.get i).1)
      (inp + (bs.get i).1) (exactRamp f0 s0 (bs.get i).1) s0 (exactRamp f1 s1 (bs.get i).1) s1 (bs.get i).2) :
    ∃ mF, pan2VecRampSimd (t.vec E) out0 out1 inp f0 s0 f1 s1 n m = .ok ((), mF) ∧
      AllSchedules ps m (fun _ => ()) mF := by
  refine ⟨_, C22_pan2_ramp_simd t E hE hn hmul a0 a1 ai hdis hin h0 h1 (by unfold SafePlacement; omega)
    (by unfold SafePlacement; omega), block_threads2 hcut hdis p0 p1 hw fun i => ?_⟩
  rw [hrun i]
  have h := List.get_mem bs i
  generalize bs.get i = b at h ⊢
  have hi := hcut.inside b h
  have hal : t.align ∣ b.1 := (align_dvd_perLine t).trans (hbm b h).1
  have ag : Agree2 m m out0 out1 n.toNat b.1 b.2.toNat := Agree2.self
  have := C22_pan2_ramp_simd t E hE (f0 := exactRamp f0 s0 b.1) (s0 := s0) (f1 := exactRamp f1 s1 b.1) (s1 := s1)
    (hcut.nonempty b h) (hbm b h).2 (Nat.dvd_add a0 hal) (Nat.dvd_add a1 hal)
    (Nat.dvd_add ai hal) (disjoint_block hdis hi) (ag.holds hi hin p0 p1)
    (ag.alloc0 hi h0) (ag.alloc1 hi h1) (safe_block hi p0) (safe_block hi p1)
  refine this.trans ?_
  have e : ∀ f s : α, ∀ i : Nat, exactRamp f s b.1 + (i : α) * s = f + ((b.1 + i : Nat) : α) * s := by
    intro f s i
    unfold exactRamp
    push_cast
    ring
  simp only [e]

end pan

/-! ## The hypotheses are satisfiable -/
section examples
open Examples

/-- Two threads pan the two halves of a buffer of 16 samples (which stay where they were) to two others. -/
example : ∃ ps : Fin 2 → Prog Int Unit,
    (∀ i, (ps i).run = pan2VecSimd (Target.sse2.vec intEnv) (16 + ([(8, 8#32), (0, 8#32)].get i).1)
      (32 + ([(8, 8#32), (0, 8#32)].get i).1) (0 + ([(8, 8#32), (0, 8#32)].get i).1) 2 3
      ([(8, 8#32), (0, 8#32)].get i).2) ∧
    ∃ mF, pan2VecSimd (Target.sse2.vec intEnv) 16 32 0 2 3 16#32 (ramp 48) = .ok ((), mF) ∧
      AllSchedules ps (ramp 48) (fun _ => ()) mF := by
  have h : ∀ i : Fin 2, ∃ p : Prog Int Unit,
      p.run = pan2VecSimd (Target.sse2.vec intEnv) (16 + ([(8, 8#32), (0, 8#32)].get i).1)
      (32 + ([(8, 8#32), (0, 8#32)].get i).1) (0 + ([(8, 8#32), (0, 8#32)].get i).1) 2 3
      ([(8, 8#32), (0, 8#32)].get i).2 ∧ _ :=
    fun i => C83_accesses_pan2_simd .sse2 intEnv (by revert i; decide) (by revert i; decide)
      (by revert i; decide) (by revert i; decide) (by revert i; decide)
  choose ps hrun hacc using h
  exact ⟨ps, hrun, C83_pan2_simd (n := 16#32) (bs := [(8, 8#32), (0, 8#32)]) (x := fun i => 10 * (i : Int) - 100) hacc two_blocks
    (by decide) (by unfold Disjoint2; decide) (by unfold Holds; decide) (by unfold Allocated; decide)
    (by unfold Allocated; decide) (by decide) (by decide) .sse2 intEnv (by decide) (by decide) (by decide) (by decide)
    (by decide) hrun⟩

end examples

end Nova
