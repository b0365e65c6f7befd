import Verif.Props.C22_AnyArithmetic
import Verif.Props.C82_Blocks

/-!
# C82 for panning, meters and the horizontal functions
-/

namespace Nova
open Spec
variable {α : Type}

/-! ## Two output buffers -/

/-- `m'` differs from `m` only in elements of the two output buffers outside the block `[o..o+k)`. -/
def Agree2 (m m' : Mem α) (out0 out1 N o k : Nat) : Prop :=
  ∀ a, m' a = m a ∨ ((out0 ≤ a ∧ a < out0 + N) ∧ ¬ (out0 + o ≤ a ∧ a < out0 + o + k) ∧ (m' a).isSome) ∨
    ((out1 ≤ a ∧ a < out1 + N) ∧ ¬ (out1 + o ≤ a ∧ a < out1 + o + k) ∧ (m' a).isSome)

theorem Agree2.alloc0 {m m' : Mem α} {out0 out1 N o k : Nat} (h : Agree2 m m' out0 out1 N o k) (hk : o + k ≤ N)
    (ha : Allocated m out0 N) : Allocated m' (out0 + o) k := by
  intro i hi
  rcases h (out0 + o + i) with h | h | h
  · rw [h, Nat.add_assoc]; exact ha _ (by omega)
  · exact h.2.2
  · exact h.2.2

theorem Agree2.alloc1 {m m' : Mem α} {out0 out1 N o k : Nat} (h : Agree2 m m' out0 out1 N o k) (hk : o + k ≤ N)
    (ha : Allocated m out1 N) : Allocated m' (out1 + o) k := by
  intro i hi
  rcases h (out1 + o + i) with h | h | h
  · rw [h, Nat.add_assoc]; exact ha _ (by omega)
  · exact h.2.2
  · exact h.2.2

theorem Agree2.holds {m m' : Mem α} {out0 out1 N o k p : Nat} {x : Nat → α} (h : Agree2 m m' out0 out1 N o k)
    (hk : o + k ≤ N) (hh : Holds m p N x) (h0 : p = out0 ∨ p + N ≤ out0 ∨ out0 + N ≤ p)
    (h1 : p = out1 ∨ p + N ≤ out1 ∨ out1 + N ≤ p) :
    Holds m' (p + o) k (fun i => x (o + i)) := by
  intro i hi
  rcases h (p + o + i) with h | h | h
  · rw [h, Nat.add_assoc]; exact hh _ (by omega)
  · obtain ⟨h1, h2, -⟩ := h
    omega
  · obtain ⟨h1, h2, -⟩ := h
    omega

/-- The memory in which the elements in `D` of both output buffers have been written. -/
def done2 (m : Mem α) (out0 out1 N : Nat) (y0 y1 : Nat → α) (D : Nat → Prop) [DecidablePred D] : Mem α := fun a =>
  if out1 ≤ a ∧ a < out1 + N ∧ D (a - out1) then some (y1 (a - out1))
  else if out0 ≤ a ∧ a < out0 + N ∧ D (a - out0) then some (y0 (a - out0)) else m a

theorem inOrder2_aux {call : Nat → BitVec 32 → Exec α Unit} {m : Mem α} {out0 out1 N : Nat} {y0 y1 : Nat → α}
    (hd2 : Disjoint2 out0 out1 N) (bs : List Block) (D : Nat → Prop) [DecidablePred D]
    (hin : ∀ b ∈ bs, b.1 + b.2.toNat ≤ N) (hdis : bs.Pairwise fun b c => ∀ i, b.Has i → ¬ c.Has i)
    (hD : ∀ b ∈ bs, ∀ i, D i → ¬ b.Has i)
    (hc : ∀ b ∈ bs, ∀ m', Agree2 m m' out0 out1 N b.1 b.2.toNat →
      call b.1 b.2 m' = .ok ((), overwrite (overwrite m' (out0 + b.1) b.2.toNat fun i => y0 (b.1 + i))
        (out1 + b.1) b.2.toNat fun i => y1 (b.1 + i)))
    (hcov : ∀ i, i < N → D i ∨ ∃ b ∈ bs, b.Has i) :
    inOrder call bs (done2 m out0 out1 N y0 y1 D)
      = .ok ((), overwrite (overwrite m out0 N y0) out1 N y1) := by
  unfold Disjoint2 at hd2
  induction bs generalizing D with
  | nil =>
    show Except.ok ((), _) = _
    congr 2
    have hcov : ∀ i, i < N → D i := fun i hi => by
      rcases hcov i hi with h | ⟨b, hb, -⟩
      · exact h
      · cases hb
    funext a
    unfold overwrite done2
    by_cases ha : out1 ≤ a ∧ a < out1 + N
    · rw [if_pos ha, if_pos ⟨ha.1, ha.2, hcov _ (by omega)⟩]
    · rw [if_neg ha, if_neg fun h => ha ⟨h.1, h.2.1⟩]
      by_cases hb : out0 ≤ a ∧ a < out0 + N
      · rw [if_pos hb, if_pos ⟨hb.1, hb.2, hcov _ (by omega)⟩]
      · rw [if_neg hb, if_neg fun h => hb ⟨h.1, h.2.1⟩]
  | cons b bs ih =>
    have hb : b ∈ b :: bs := List.mem_cons_self
    obtain ⟨hp1, hp2⟩ := List.pairwise_cons.mp hdis
    have hI := hin b hb
    have hDb := hD b hb
    unfold Block.Has at hDb
    show (call b.1 b.2 >>= fun _ => inOrder call bs) _ = _
    rw [Exec.bind_ok (hc b hb _ ?_)]
    · have : DecidablePred fun i => D i ∨ b.Has i := fun i => by unfold Block.Has; exact inferInstance
      have e : overwrite (overwrite (done2 m out0 out1 N y0 y1 D) (out0 + b.1) b.2.toNat fun i => y0 (b.1 + i))
            (out1 + b.1) b.2.toNat (fun i => y1 (b.1 + i))
          = done2 m out0 out1 N y0 y1 fun i => D i ∨ b.Has i := by
        funext a
        unfold overwrite done2
        dsimp only
        by_cases h1 : out1 + b.1 ≤ a ∧ a < out1 + b.1 + b.2.toNat
        · rw [if_pos h1, if_pos ⟨by omega, by omega, Or.inr ⟨by omega, by omega⟩⟩,
            show b.1 + (a - (out1 + b.1)) = a - out1 by omega]
        · rw [if_neg h1]
          by_cases h0 : out0 + b.1 ≤ a ∧ a < out0 + b.1 + b.2.toNat
          · rw [if_pos h0, if_neg (by omega), if_pos ⟨by omega, by omega, Or.inr ⟨by omega, by omega⟩⟩,
              show b.1 + (a - (out0 + b.1)) = a - out0 by omega]
          · rw [if_neg h0]
            have g1 : (out1 ≤ a ∧ a < out1 + N ∧ (D (a - out1) ∨ b.Has (a - out1)))
                ↔ (out1 ≤ a ∧ a < out1 + N ∧ D (a - out1)) := by
              unfold Block.Has
              constructor
              · rintro ⟨h3, h4, h5 | h5⟩
                · exact ⟨h3, h4, h5⟩
                · omega
              · rintro ⟨h3, h4, h5⟩
                exact ⟨h3, h4, Or.inl h5⟩
            have g0 : (out0 ≤ a ∧ a < out0 + N ∧ (D (a - out0) ∨ b.Has (a - out0)))
                ↔ (out0 ≤ a ∧ a < out0 + N ∧ D (a - out0)) := by
              unfold Block.Has
              constructor
              · rintro ⟨h3, h4, h5 | h5⟩
                · exact ⟨h3, h4, h5⟩
                · omega
              · rintro ⟨h3, h4, h5⟩
                exact ⟨h3, h4, Or.inl h5⟩
            simp only [g1, g0]
      rw [e]
      refine ih (fun i => D i ∨ b.Has i) (fun c h => hin c (List.mem_cons_of_mem _ h)) hp2 ?_ ?_ ?_
      · rintro c hcm i (h | h)
        · exact hD c (List.mem_cons_of_mem _ hcm) i h
        · exact hp1 c hcm i h
      · exact fun c h => hc c (List.mem_cons_of_mem _ h)
      · intro i hi
        rcases hcov i hi with h | ⟨c, hcm, h⟩
        · exact Or.inl (Or.inl h)
        · rcases List.mem_cons.mp hcm with rfl | hcm
          · exact Or.inl (Or.inr h)
          · exact Or.inr ⟨c, hcm, h⟩
    · intro a
      unfold done2
      by_cases h1 : out1 ≤ a ∧ a < out1 + N ∧ D (a - out1)
      · right; right
        rw [if_pos h1]
        exact ⟨⟨h1.1, h1.2.1⟩, fun h => hDb _ h1.2.2 ⟨by omega, by omega⟩, rfl⟩
      · rw [if_neg h1]
        by_cases h0 : out0 ≤ a ∧ a < out0 + N ∧ D (a - out0)
        · right; left
          rw [if_pos h0]
          exact ⟨⟨h0.1, h0.2.1⟩, fun h => hDb _ h0.2.2 ⟨by omega, by omega⟩, rfl⟩
        · left
          rw [if_neg h0]

theorem inOrder2_ok {call : Nat → BitVec 32 → Exec α Unit} {m : Mem α} {out0 out1 N : Nat} {y0 y1 : Nat → α}
    (hd2 : Disjoint2 out0 out1 N) {bs : List Block} (hcut : Cuts bs N)
    (hc : ∀ b ∈ bs, ∀ m', Agree2 m m' out0 out1 N b.1 b.2.toNat →
      call b.1 b.2 m' = .ok ((), overwrite (overwrite m' (out0 + b.1) b.2.toNat fun i => y0 (b.1 + i))
        (out1 + b.1) b.2.toNat fun i => y1 (b.1 + i))) :
    inOrder call bs m = .ok ((), overwrite (overwrite m out0 N y0) out1 N y1) := by
  have h := inOrder2_aux hd2 bs (fun _ => False) hcut.inside hcut.disjoint (fun _ _ _ h => h.elim) hc
    fun i hi => Or.inr (hcut.cover i hi)
  have e : done2 m out0 out1 N y0 y1 (fun _ => False) = m := by
    funext a
    unfold done2
    rw [if_neg fun h => h.2.2, if_neg fun h => h.2.2]
  rwa [e] at h

theorem disjoint_block {p q N o k : Nat} (h : Disjoint2 p q N) (hk : o + k ≤ N) : Disjoint2 (p + o) (q + o) k := by
  unfold Disjoint2 at *
  omega

/-! ## Panning -/
section pan
variable {m : Mem α} {out0 out1 inp : Nat} {f0 s0 f1 s1 : α} {n : BitVec 32} {bs : List Block} {x : Nat → α}

/-- `pan2_vec`: the blocks may be panned in any order, in any arithmetic. -/
theorem C82_order_pan2 (E : Env α) (hn : 0 < n.toNat) (hcut : Cuts bs n.toNat)
    (hdis : Disjoint2 out0 out1 n.toNat) (hin : Holds m inp n.toNat x) (h0 : Allocated m out0 n.toNat)
    (h1 : Allocated m out1 n.toNat) (p0 : inp = out0 ∨ inp + n.toNat ≤ out0 ∨ out0 + n.toNat ≤ inp)
    (p1 : inp = out1 ∨ inp + n.toNat ≤ out1 ∨ out1 + n.toNat ≤ inp) :
    inOrder (fun o k => pan2Vec E (out0 + o) (out1 + o) (inp + o) f0 f1 k) bs m
      = pan2Vec E out0 out1 inp f0 f1 n m := by
  rw [C21_pan2_scalar E hn hdis hin h0 h1 (by unfold SafePlacement; omega) (by unfold SafePlacement; omega)]
  refine inOrder2_ok hdis hcut fun b h m' ag => ?_
  have hi := hcut.inside b h
  exact C21_pan2_scalar E (hcut.nonempty b h) (disjoint_block hdis hi) (ag.holds hi hin p0 p1)
    (ag.alloc0 hi h0) (ag.alloc1 hi h1) (safe_block hi p0) (safe_block hi p1)

/-- `pan2_vec_simd` -/
theorem C82_order_pan2_simd (t : Target) (E : Env α) (hn : 0 < n.toNat) (hmul : t.perLine ∣ n.toNat)
    (hcut : Cuts bs n.toNat) (hbm : ∀ b ∈ bs, t.perLine ∣ b.1 ∧ t.perLine ∣ b.2.toNat)
    (a0 : t.align ∣ out0) (a1 : t.align ∣ out1) (ai : t.align ∣ inp)
    (hdis : Disjoint2 out0 out1 n.toNat) (hin : Holds m inp n.toNat x) (h0 : Allocated m out0 n.toNat)
    (h1 : Allocated m out1 n.toNat) (p0 : inp = out0 ∨ inp + n.toNat ≤ out0 ∨ out0 + n.toNat ≤ inp)
    (p1 : inp = out1 ∨ inp + n.toNat ≤ out1 ∨ out1 + n.toNat ≤ inp) :
    inOrder (fun o k => pan2VecSimd (t.vec E) (out0 + o) (out1 + o) (inp + o) f0 f1 k) bs m
      = pan2VecSimd (t.vec E) out0 out1 inp f0 f1 n m := by
  rw [C21_pan2_simd t E hn hmul a0 a1 ai hdis hin h0 h1 (by unfold SafePlacement; omega)
    (by unfold SafePlacement; omega)]
  refine inOrder2_ok hdis hcut fun b h m' ag => ?_
  have hi := hcut.inside b h
  have hal : t.align ∣ b.1 := (align_dvd_perLine t).trans (hbm b h).1
  exact C21_pan2_simd t E (hcut.nonempty b h) (hbm b h).2 (Nat.dvd_add a0 hal) (Nat.dvd_add a1 hal)
    (Nat.dvd_add ai hal) (disjoint_block hdis hi) (ag.holds hi hin p0 p1)
    (ag.alloc0 hi h0) (ag.alloc1 hi h1) (safe_block hi p0) (safe_block hi p1)

/-- `pan2_vec` with slopes: the call on the block that starts at element `o` gets the gains of that element. -/
theorem C82_order_pan2_ramp (E : Env α) (hn : 0 < n.toNat) (hcut : Cuts bs n.toNat)
    (hdis : Disjoint2 out0 out1 n.toNat) (hin : Holds m inp n.toNat x) (h0 : Allocated m out0 n.toNat)
    (h1 : Allocated m out1 n.toNat) (p0 : inp = out0 ∨ inp + n.toNat ≤ out0 ∨ out0 + n.toNat ≤ inp)
    (p1 : inp = out1 ∨ inp + n.toNat ≤ out1 ∨ out1 + n.toNat ≤ inp) :
    inOrder (fun o k => pan2VecRamp E (out0 + o) (out1 + o) (inp + o) (scalarRamp E.S f0 s0 o) s0
        (scalarRamp E.S f1 s1 o) s1 k) bs m
      = pan2VecRamp E out0 out1 inp f0 s0 f1 s1 n m := by
  rw [C22_any_scalar E hn hdis hin h0 h1 (by unfold SafePlacement; omega) (by unfold SafePlacement; omega)]
  refine inOrder2_ok hdis hcut fun b h m' ag => ?_
  have hi := hcut.inside b h
  have := C22_any_scalar E (f0 := scalarRamp E.S f0 s0 b.1) (s0 := s0) (f1 := scalarRamp E.S f1 s1 b.1) (s1 := s1)
    (hcut.nonempty b h) (disjoint_block hdis hi) (ag.holds hi hin p0 p1)
    (ag.alloc0 hi h0) (ag.alloc1 hi h1) (safe_block hi p0) (safe_block hi p1)
  simp only [scalarRamp_add] at this
  exact this

/-- `pan2_vec_simd` with slopes, in exact arithmetic. -/
theorem C82_order_pan2_ramp_simd [CommRing α] (t : Target) (E : Env α) (hE : E.Exact) (hn : 0 < n.toNat)
    (hmul : t.perLine ∣ n.toNat) (hcut : Cuts bs n.toNat) (hbm : ∀ b ∈ bs, t.perLine ∣ b.1 ∧ t.perLine ∣ b.2.toNat)
    (a0 : t.align ∣ out0) (a1 : t.align ∣ out1) (ai : t.align ∣ inp)
    (hdis : Disjoint2 out0 out1 n.toNat) (hin : Holds m inp n.toNat x) (h0 : Allocated m out0 n.toNat)
    (h1 : Allocated m out1 n.toNat) (p0 : inp = out0 ∨ inp + n.toNat ≤ out0 ∨ out0 + n.toNat ≤ inp)
    (p1 : inp = out1 ∨ inp + n.toNat ≤ out1 ∨ out1 + n.toNat ≤ inp) :
    inOrder (fun o k => pan2VecRampSimd (t.vec E) (out0 + o) (out1 + o) (inp + o) (exactRamp f0 s0 o) s0
        (exactRamp f1 s1 o) s1 k) bs m
      = pan2VecRampSimd (t.vec E) out0 out1 inp f0 s0 f1 s1 n m := by
  rw [C22_pan2_ramp_simd t E hE hn hmul a0 a1 ai hdis hin h0 h1 (by unfold SafePlacement; omega)
    (by unfold SafePlacement; omega)]
  refine inOrder2_ok hdis hcut fun b h m' ag => ?_
  have hi := hcut.inside b h
  have hal : t.align ∣ b.1 := (align_dvd_perLine t).trans (hbm b h).1
  have := C22_pan2_ramp_simd t E hE (f0 := exactRamp f0 s0 b.1) (s0 := s0) (f1 := exactRamp f1 s1 b.1) (s1 := s1)
    (hcut.nonempty b h) (hbm b h).2 (Nat.dvd_add a0 hal) (Nat.dvd_add a1 hal)
    (Nat.dvd_add ai hal) (disjoint_block hdis hi) (ag.holds hi hin p0 p1)
    (ag.alloc0 hi h0) (ag.alloc1 hi h1) (safe_block hi p0) (safe_block hi p1)
  refine this.trans ?_
  have e : ∀ f s : α, ∀ i : Nat, exactRamp f s b.1 + (i : α) * s = f + ((b.1 + i : Nat) : α) * s := by
    intro f s i
    unfold exactRamp
    push_cast
    ring
  simp only [e]

end pan

/-! ## The peak and RMS meter -/

theorem peakRmsVec_run (E : Env α) {m : Mem α} {inp peak sq : Nat} {n : BitVec 32} {x : Nat → α} {p0 s0 : α}
    (hn : 0 < n.toNat) (hx : Holds m inp n.toNat x) (hp : m peak = some p0) (hs : m sq = some s0) :
    peakRmsVec E inp peak sq n m = .ok ((), overwrite (overwrite m peak 1
        (fun _ => foldSeq (Neon.stdMax E.S) p0 (fun i => E.S.abs (x i)) n.toNat)) sq 1
      (fun _ => foldSeq E.S.add s0 (fun i => E.S.mul (x i) (x i)) n.toNat)) := by
  have hps : (m peak).isSome := by rw [hp]; rfl
  have hss : (m sq).isSome := by rw [hs]; rfl
  have hloop := iterM_seq (body := fun (s : Nat × α × α) => (do
      let (inp, localPeak, localSum) := s
      let inSample ← read inp
      let last := E.S.abs inSample
      pure (inp + 1, Neon.stdMax E.S localPeak last,
        E.S.add localSum (E.S.mul inSample inSample)) : Exec α (Nat × α × α)))
    (fun k => (inp + k, foldSeq (Neon.stdMax E.S) p0 (fun i => E.S.abs (x i)) k,
      foldSeq E.S.add s0 (fun i => E.S.mul (x i) (x i)) k)) (fun _ => m) n.toNat (fun k hk => by
      refine (Exec.bind_ok (read_ok (hx k hk))).trans ?_
      rfl)
  unfold peakRmsVec
  rw [Exec.bind_ok (read_ok hp), Exec.bind_ok (read_ok hs), doWhile_eq_iterM, tripCount_of_pos hn]
  refine (Exec.bind_ok hloop).trans ?_
  refine (Exec.bind_ok (write_one hps)).trans ?_
  exact write_one (overwrite_alloc hss)

theorem cells_twice {m : Mem α} {c d : Nat} {y y' z z' : α} :
    overwrite (overwrite (overwrite (overwrite m c 1 fun _ => y) d 1 fun _ => z) c 1 fun _ => y') d 1 (fun _ => z')
      = overwrite (overwrite m c 1 fun _ => y') d 1 fun _ => z' := by
  funext a
  unfold overwrite
  by_cases hd : d ≤ a ∧ a < d + 1
  · rw [if_pos hd, if_pos hd]
  · rw [if_neg hd, if_neg hd]
    by_cases hc : c ≤ a ∧ a < c + 1
    · simp only [if_pos hc, if_neg hd]
    · simp only [if_neg hc, if_neg hd]

/-- The two cells of the meter's state. -/
theorem cells_state {m : Mem α} {c d : Nat} (h : c ≠ d) {y z : α} :
    overwrite (overwrite m c 1 fun _ => y) d 1 (fun _ => z) c = some y ∧
      overwrite (overwrite m c 1 fun _ => y) d 1 (fun _ => z) d = some z := by
  refine ⟨?_, overwrite_cell⟩
  unfold overwrite
  rw [if_neg (by omega), if_pos (by omega)]

/-- Metering two consecutive blocks with `peak_rms_vec` is metering both at once, in any arithmetic. -/
theorem C82_peak_rms (E : Env α) {m : Mem α} {inp peak sq : Nat} {n k : BitVec 32} {x : Nat → α} {p0 s0 : α}
    (hn : 0 < n.toNat) (hk : 0 < k.toNat) (hnk : n.toNat + k.toNat < 2 ^ 32)
    (hx : Holds m inp (n + k).toNat x) (hp : m peak = some p0) (hs : m sq = some s0) (hps : peak ≠ sq)
    (hc : peak < inp + n.toNat ∨ inp + (n + k).toNat ≤ peak) (hd : sq < inp + n.toNat ∨ inp + (n + k).toNat ≤ sq) :
    (do peakRmsVec E inp peak sq n
        peakRmsVec E (inp + n.toNat) peak sq k) m = peakRmsVec E inp peak sq (n + k) m := by
  rw [peakRmsVec_run E (by rw [toNat_split hnk]; omega) hx hp hs]
  rw [toNat_split hnk] at *
  rw [Exec.bind_ok (peakRmsVec_run E hn (holds_first hx) hp hs),
    peakRmsVec_run E hk (x := fun i => x (n.toNat + i)) (holds_after_cell (holds_after_cell (fun i hi => by
      rw [Nat.add_assoc]; exact hx _ (by omega)) (by omega)) (by omega)) (cells_state hps).1 (cells_state hps).2,
    cells_twice, foldSeq_more (Neon.stdMax E.S) p0 (fun i => E.S.abs (x i)),
    foldSeq_more E.S.add s0 (fun i => E.S.mul (x i) (x i))]

/-- The same for `peak_rms_vec_simd`, in exact arithmetic and on every back end but AVX (C26). -/
theorem C82_peak_rms_simd [LinearOrder α] [CommRing α] [IsStrictOrderedRing α] (t : Target)
    (ht : t ≠ .avxFloat ∧ t ≠ .avxDouble) (E : Env α) (hX : E.Exact) (hE : E.Ordered) (hA : E.ExactAbs)
    {m : Mem α} {inp peak sq : Nat} {n k : BitVec 32} {x : Nat → α} {p0 s0 : α} (hn : 0 < n.toNat)
    (hk : 0 < k.toNat) (hnk : n.toNat + k.toNat < 2 ^ 32) (nmul : 4 * t.size ∣ n.toNat)
    (kmul : 4 * t.size ∣ k.toNat) (hal : t.align ∣ inp) (hx : Holds m inp (n + k).toNat x)
    (hp : m peak = some p0) (hs : m sq = some s0) (hps : peak ≠ sq)
    (hc : peak < inp + n.toNat ∨ inp + (n + k).toNat ≤ peak) (hd : sq < inp + n.toNat ∨ inp + (n + k).toNat ≤ sq) :
    (do peakRmsVecSimd (t.vec E) inp peak sq n
        peakRmsVecSimd (t.vec E) (inp + n.toNat) peak sq k) m = peakRmsVecSimd (t.vec E) inp peak sq (n + k) m := by
  have hsz : t.align ∣ t.size := by rw [← t.vec_size E]; exact (t.lawful E).al_dvd
  have hal' : t.align ∣ n.toNat := hsz.trans ((Dvd.intro_left 4 rfl).trans nmul)
  rw [C25_equal_partial t ht E hX hE hA (by rw [toNat_split hnk]; omega)
    (by rw [toNat_split hnk]; exact Nat.dvd_add nmul kmul) hal hx hp hs, ← C82_peak_rms E hn hk hnk hx hp hs hps hc hd]
  rw [toNat_split hnk] at hx hc hd
  have e := C25_equal_partial t ht E hX hE hA hn nmul hal (holds_first hx) hp hs
  rw [peakRmsVec_run E hn (holds_first hx) hp hs] at e
  rw [Exec.bind_ok e, Exec.bind_ok (peakRmsVec_run E hn (holds_first hx) hp hs)]
  exact C25_equal_partial t ht E hX hE hA hk kmul (Nat.dvd_add hal hal') (x := fun i => x (n.toNat + i))
    (holds_after_cell (holds_after_cell (fun i hi => by rw [Nat.add_assoc]; exact hx _ (by omega)) (by omega))
      (by omega)) (cells_state hps).1 (cells_state hps).2

/-! ## Horizontal functions: the results of two blocks are combined -/
section horizontal
variable {m : Mem α} {inp : Nat} {n k : BitVec 32} {x : Nat → α}

theorem foldSeq_max_split [LinearOrder α] (c : α) (x : Nat → α) (n k : Nat) :
    max (foldSeq max c x n) (foldSeq max c (fun i => x (n + i)) k) = foldSeq max c x (n + k) := by
  induction k with
  | zero =>
    show max (foldSeq max c x n) c = foldSeq max c x n
    apply max_eq_left
    induction n with
    | zero => exact le_refl _
    | succ n ih => exact ih.trans (le_max_left _ _)
  | succ k ih =>
    show max (foldSeq max c x n) (max (foldSeq max c (fun i => x (n + i)) k) (x (n + k)))
      = max (foldSeq max c x (n + k)) (x (n + k))
    rw [← max_assoc, ih]

theorem foldSeq_min_split [LinearOrder α] (c : α) (x : Nat → α) (n k : Nat) :
    min (foldSeq min c x n) (foldSeq min c (fun i => x (n + i)) k) = foldSeq min c x (n + k) :=
  foldSeq_max_split (α := αᵒᵈ) c x n k

theorem holds_second (h : Holds m inp (n.toNat + k.toNat) x) :
    Holds m (inp + n.toNat) k.toNat (fun i => x (n.toNat + i)) := fun i hi => by
  rw [Nat.add_assoc]
  exact h _ (by omega)

variable (hn : 0 < n.toNat) (hk : 0 < k.toNat) (hnk : n.toNat + k.toNat < 2 ^ 32)

section scalar
variable (hx : Holds m inp (n + k).toNat x)
include hn hk hnk hx

/-- The sum of a buffer is the sum of the sums of its two parts (exact arithmetic). -/
theorem C82_sum [CommRing α] (E : Env α) (hX : E.Exact) :
    (do let r ← horizontalSumVec E inp n
        let s ← horizontalSumVec E (inp + n.toNat) k
        pure (r + s)) m = horizontalSumVec E inp (n + k) m := by
  rw [C27_scalar E hX (by rw [toNat_split hnk]; omega) hx]
  rw [toNat_split hnk] at hx ⊢
  rw [Exec.bind_ok (C27_scalar E hX hn (holds_first hx)), Exec.bind_ok (C27_scalar E hX hk (holds_second hx)),
    Finset.sum_range_add]
  rfl

variable [LinearOrder α] (E : Env α) (hE : E.Ordered) (lim : Limits α)
include hE

/-- The maximum of a buffer is the larger of the maxima of its two parts. -/
theorem C82_max :
    (do let r ← horizontalMaxVec E lim inp n
        let s ← horizontalMaxVec E lim (inp + n.toNat) k
        pure (max r s)) m = horizontalMaxVec E lim inp (n + k) m := by
  have e : Neon.stdMax E.S = max := funext fun a => funext fun b => stdMax_eq hE.S a b
  unfold horizontalMaxVec
  rw [foldVec_ok (by rw [toNat_split hnk]; omega) hx]
  rw [toNat_split hnk] at hx ⊢
  rw [Exec.bind_ok (foldVec_ok hn (holds_first hx)), Exec.bind_ok (foldVec_ok hk (holds_second hx)), e,
    ← foldSeq_max_split]
  rfl

theorem C82_min :
    (do let r ← horizontalMinVec E lim inp n
        let s ← horizontalMinVec E lim (inp + n.toNat) k
        pure (min r s)) m = horizontalMinVec E lim inp (n + k) m := by
  have e : Neon.stdMin E.S = min := funext fun a => funext fun b => stdMin_eq hE.S a b
  unfold horizontalMinVec
  rw [foldVec_ok (by rw [toNat_split hnk]; omega) hx]
  rw [toNat_split hnk] at hx ⊢
  rw [Exec.bind_ok (foldVec_ok hn (holds_first hx)), Exec.bind_ok (foldVec_ok hk (holds_second hx)), e,
    ← foldSeq_min_split]
  rfl

theorem C82_minmax :
    (do let r ← horizontalMinmaxVec E lim inp n
        let s ← horizontalMinmaxVec E lim (inp + n.toNat) k
        pure (min r.1 s.1, max r.2 s.2)) m = horizontalMinmaxVec E lim inp (n + k) m := by
  have e : Neon.stdMin E.S = min := funext fun a => funext fun b => stdMin_eq hE.S a b
  have e' : Neon.stdMax E.S = max := funext fun a => funext fun b => stdMax_eq hE.S a b
  have run : ∀ {p : Nat} {l : BitVec 32} {y : Nat → α}, 0 < l.toNat → Holds m p l.toNat y →
      horizontalMinmaxVec E lim p l m
        = .ok ((foldSeq min lim.max y l.toNat, foldSeq max lim.min y l.toNat), m) := by
    intro p l y hl hy
    unfold horizontalMinmaxVec
    rw [Exec.bind_ok (foldVec_ok hl hy), foldSeq_prod, e, e']
    rfl
  rw [run (by rw [toNat_split hnk]; omega) hx]
  rw [toNat_split hnk] at hx ⊢
  rw [Exec.bind_ok (run hn (holds_first hx)), Exec.bind_ok (run hk (holds_second hx)),
    ← foldSeq_min_split, ← foldSeq_max_split]
  rfl

theorem C82_maxsum [CommRing α] (hX : E.Exact) :
    (do let r ← horizontalMaxsumVec E lim inp n
        let s ← horizontalMaxsumVec E lim (inp + n.toNat) k
        pure (max r.1 s.1, r.2 + s.2)) m = horizontalMaxsumVec E lim inp (n + k) m := by
  have e' : Neon.stdMax E.S = max := funext fun a => funext fun b => stdMax_eq hE.S a b
  have run : ∀ {p : Nat} {l : BitVec 32} {y : Nat → α}, 0 < l.toNat → Holds m p l.toNat y →
      horizontalMaxsumVec E lim p l m
        = .ok ((foldSeq max lim.min y l.toNat, ∑ i ∈ Finset.range l.toNat, y i), m) := by
    intro p l y hl hy
    unfold horizontalMaxsumVec
    rw [foldVec_ok hl hy, foldSeq_prod (Neon.stdMax E.S) E.S.add, e', foldSeq_add hX.S.add, hX.S.zero, zero_add]
  rw [run (by rw [toNat_split hnk]; omega) hx]
  rw [toNat_split hnk] at hx ⊢
  rw [Exec.bind_ok (run hn (holds_first hx)), Exec.bind_ok (run hk (holds_second hx)),
    ← foldSeq_max_split, Finset.sum_range_add]
  rfl

end scalar

section simd
variable (t : Target) (nmul : t.size ∣ n.toNat) (kmul : t.size ∣ k.toNat) (hal : t.align ∣ inp)
  (hx : Holds m inp (n + k).toNat x)
include hn hk hnk nmul kmul hal hx

theorem simdInput_parts :
    SimdInput t m inp n x ∧ SimdInput t m (inp + n.toNat) k (fun i => x (n.toNat + i)) ∧ SimdInput t m inp (n + k) x := by
  have hsz : t.align ∣ t.size := by
    cases t <;> simp only [Target.align, Target.size] <;> decide
  have h' := hx
  rw [toNat_split hnk] at h'
  exact ⟨⟨hn, nmul, hal, holds_first h'⟩, ⟨hk, kmul, Nat.dvd_add hal (hsz.trans nmul), holds_second h'⟩,
    ⟨by rw [toNat_split hnk]; omega, by rw [toNat_split hnk]; exact Nat.dvd_add nmul kmul, hal, hx⟩⟩

/-- `horizontal_sum_vec_simd` -/
theorem C82_sum_simd [CommRing α] (E : Env α) (hX : E.Exact) :
    (do let r ← horizontalSumVecSimd E (t.vec E) inp n
        let s ← horizontalSumVecSimd E (t.vec E) (inp + n.toNat) k
        pure (r + s)) m = horizontalSumVecSimd E (t.vec E) inp (n + k) m := by
  obtain ⟨h1, h2, h3⟩ := simdInput_parts hn hk hnk t nmul kmul hal hx
  rw [C29_sum t E h3 hX, ← C82_sum hn hk hnk hx E hX]
  rw [Exec.bind_ok (C27_simd t E hX h1), Exec.bind_ok (C27_simd t E hX h2),
    Exec.bind_ok (C27_scalar E hX h1.pos h1.holds), Exec.bind_ok (C27_scalar E hX h2.pos h2.holds)]

variable [LinearOrder α] (E : Env α) (hE : E.Ordered) (lim : Limits α)
include hE

theorem C82_max_simd :
    (do let r ← horizontalMaxVecSimd (t.vec E) lim inp n
        let s ← horizontalMaxVecSimd (t.vec E) lim (inp + n.toNat) k
        pure (max r s)) m = horizontalMaxVecSimd (t.vec E) lim inp (n + k) m := by
  obtain ⟨h1, h2, h3⟩ := simdInput_parts hn hk hnk t nmul kmul hal hx
  obtain ⟨r, e1, -⟩ := C28_max_exact E hE lim h1.pos h1.holds
  obtain ⟨s, e2, -⟩ := C28_max_exact E hE lim h2.pos h2.holds
  rw [C29_max t E hE lim h3, ← C82_max hn hk hnk hx E hE lim]
  rw [Exec.bind_ok ((C29_max t E hE lim h1).trans e1), Exec.bind_ok ((C29_max t E hE lim h2).trans e2),
    Exec.bind_ok e1, Exec.bind_ok e2]

theorem C82_min_simd :
    (do let r ← horizontalMinVecSimd (t.vec E) lim inp n
        let s ← horizontalMinVecSimd (t.vec E) lim (inp + n.toNat) k
        pure (min r s)) m = horizontalMinVecSimd (t.vec E) lim inp (n + k) m := by
  obtain ⟨h1, h2, h3⟩ := simdInput_parts hn hk hnk t nmul kmul hal hx
  obtain ⟨r, e1, -⟩ := C28_min_exact E hE lim h1.pos h1.holds
  obtain ⟨s, e2, -⟩ := C28_min_exact E hE lim h2.pos h2.holds
  rw [C29_min t E hE lim h3, ← C82_min hn hk hnk hx E hE lim]
  rw [Exec.bind_ok ((C29_min t E hE lim h1).trans e1), Exec.bind_ok ((C29_min t E hE lim h2).trans e2),
    Exec.bind_ok e1, Exec.bind_ok e2]

theorem C82_minmax_simd :
    (do let r ← horizontalMinmaxVecSimd (t.vec E) lim inp n
        let s ← horizontalMinmaxVecSimd (t.vec E) lim (inp + n.toNat) k
        pure (min r.1 s.1, max r.2 s.2)) m = horizontalMinmaxVecSimd (t.vec E) lim inp (n + k) m := by
  obtain ⟨h1, h2, h3⟩ := simdInput_parts hn hk hnk t nmul kmul hal hx
  have run : ∀ {p : Nat} {l : BitVec 32} {y : Nat → α}, 0 < l.toNat → Holds m p l.toNat y →
      ∃ r, horizontalMinmaxVec E lim p l m = .ok (r, m) := fun hl hy => by
    unfold horizontalMinmaxVec
    exact ⟨_, Exec.bind_ok (foldVec_ok hl hy)⟩
  obtain ⟨r, e1⟩ := run h1.pos h1.holds
  obtain ⟨s, e2⟩ := run h2.pos h2.holds
  rw [C29_minmax t E hE lim h3, ← C82_minmax hn hk hnk hx E hE lim]
  rw [Exec.bind_ok ((C29_minmax t E hE lim h1).trans e1), Exec.bind_ok ((C29_minmax t E hE lim h2).trans e2),
    Exec.bind_ok e1, Exec.bind_ok e2]

theorem C82_maxsum_simd [CommRing α] (hX : E.Exact) :
    (do let r ← horizontalMaxsumVecSimd E (t.vec E) lim inp n
        let s ← horizontalMaxsumVecSimd E (t.vec E) lim (inp + n.toNat) k
        pure (max r.1 s.1, r.2 + s.2)) m = horizontalMaxsumVecSimd E (t.vec E) lim inp (n + k) m := by
  obtain ⟨h1, h2, h3⟩ := simdInput_parts hn hk hnk t nmul kmul hal hx
  obtain ⟨r, e1, -⟩ := C28_maxsum E hE hX lim h1.pos h1.holds
  obtain ⟨s, e2, -⟩ := C28_maxsum E hE hX lim h2.pos h2.holds
  rw [C29_maxsum t E hE lim h3 hX, ← C82_maxsum hn hk hnk hx E hE lim hX]
  rw [Exec.bind_ok ((C29_maxsum t E hE lim h1 hX).trans e1), Exec.bind_ok ((C29_maxsum t E hE lim h2 hX).trans e2),
    Exec.bind_ok e1, Exec.bind_ok e2]

end simd
end horizontal

/-! ## The hypotheses are satisfiable -/
section examples
open Examples

/-- Six elements, the last of which is panned first. -/
example : inOrder (fun o k => pan2Vec intEnv (8 + o) (16 + o) (0 + o) 2 3 k) [(5, 1#32), (0, 5#32)] (ramp 24)
    = pan2Vec intEnv 8 16 0 2 3 6#32 (ramp 24) :=
  C82_order_pan2 intEnv (x := fun i => 10 * (i : Int) - 100) (by decide)
    ⟨by decide, by decide, by
      refine List.pairwise_cons.mpr ⟨fun c hc i h1 h2 => ?_, List.pairwise_cons.mpr ⟨fun c hc => absurd hc List.not_mem_nil, List.Pairwise.nil⟩⟩
      have e : (1#32).toNat = 1 ∧ (5#32).toNat = 5 := ⟨rfl, rfl⟩
      simp only [List.mem_cons, List.not_mem_nil, or_false] at hc
      subst hc
      simp only [Block.Has, e] at h1 h2
      omega,
      fun i hi => by
        have hi : i < 6 := hi
        by_cases h1 : i < 5
        · exact ⟨(0, 5#32), by simp, Nat.zero_le _, by simpa using h1⟩
        · exact ⟨(5, 1#32), by simp, by simpa using Nat.le_of_not_lt h1, by simpa using hi⟩⟩
    (by unfold Disjoint2; decide) (by unfold Holds; decide) (by unfold Allocated; decide)
    (by unfold Allocated; decide) (by decide) (by decide)

example : (do peakRmsVec intEnv 0 16 17 3#32
              peakRmsVec intEnv 3 16 17 4#32) (ramp 20) = peakRmsVec intEnv 0 16 17 7#32 (ramp 20) :=
  C82_peak_rms intEnv (n := 3#32) (k := 4#32) (x := fun i => 10 * (i : Int) - 100) (p0 := 60) (s0 := 70)
    (by decide) (by decide) (by decide) (by unfold Holds; decide) (by decide) (by decide) (by decide) (by decide)
    (by decide)

example : (do let r ← horizontalMaxVecSimd (Target.sse2.vec intEnv) ⟨1, 1000⟩ 0 8#32
              let s ← horizontalMaxVecSimd (Target.sse2.vec intEnv) ⟨1, 1000⟩ 8 16#32
              pure (max r s)) (ramp 24) = horizontalMaxVecSimd (Target.sse2.vec intEnv) ⟨1, 1000⟩ 0 24#32 (ramp 24) :=
  C82_max_simd (n := 8#32) (k := 16#32) (x := fun i => 10 * (i : Int) - 100) (by decide) (by decide) (by decide)
    .sse2 (by decide) (by decide) (by decide) (by unfold Holds; decide) intEnv intEnv_ordered ⟨1, 1000⟩

end examples

end Nova
