import Verif.Lemmas.Buffers
import Verif.Lemmas.Backends

/-!
# What a successful execution implies about the allocated cells (helper lemmas for C10, C11)
-/

namespace Nova
open Spec
variable {α β γ σ : Type}

/-- Partial correctness: if `x` succeeds on `m`, its result satisfies `Q`. -/
def Ensures (x : Exec α β) (m : Mem α) (Q : β → Mem α → Prop) : Prop :=
  ∀ b m', x m = .ok (b, m') → Q b m'

theorem Ensures.bind {x : Exec α β} {f : β → Exec α γ} {m : Mem α} {Q : γ → Mem α → Prop}
    (h : Ensures x m fun b m' => Ensures (f b) m' Q) : Ensures (x >>= f) m Q := by
  intro c m'' hc
  rw [Exec.bind_run] at hc
  cases hx : x m with
  | error e => rw [hx] at hc; cases hc
  | ok r =>
    obtain ⟨b, m'⟩ := r
    rw [hx] at hc
    exact h b m' hx c m'' hc

theorem Ensures.pure {b : β} {m : Mem α} {Q : β → Mem α → Prop} (h : Q b m) :
    Ensures (Pure.pure b : Exec α β) m Q := by
  intro c m' hc
  cases hc; exact h

theorem Ensures.mono {x : Exec α β} {m : Mem α} {Q Q' : β → Mem α → Prop} (h : Ensures x m Q)
    (hQ : ∀ b m', Q b m' → Q' b m') : Ensures x m Q' := fun b m' hx => hQ b m' (h b m' hx)

theorem Ensures.fail {e : Fault} {m : Mem α} {Q : β → Mem α → Prop} :
    Ensures (Exec.fail e : Exec α β) m Q := by
  intro b m' h; cases h

theorem Ensures.lift {y : Except Fault β} {m : Mem α} {Q : β → Mem α → Prop}
    (h : ∀ b, y = .ok b → Q b m) : Ensures (Exec.lift y : Exec α β) m Q := by
  intro b m' hb
  cases y with
  | error e => cases hb
  | ok c => cases hb; exact h _ rfl

/-- Both memories have the same allocated cells. -/
def SameDom (m m' : Mem α) : Prop := ∀ a, (m' a).isSome = (m a).isSome

theorem SameDom.refl (m : Mem α) : SameDom m m := fun _ => rfl

theorem SameDom.trans {m m' m'' : Mem α} (h : SameDom m m') (h' : SameDom m' m'') :
    SameDom m m'' := fun a => (h' a).trans (h a)

theorem ensures_read {p : Nat} {m : Mem α} :
    Ensures (read p) m fun _ m' => m' = m ∧ (m p).isSome := by
  intro b m' h
  unfold read at h
  cases hm : m p with
  | none => rw [hm] at h; cases h
  | some v => rw [hm] at h; cases h; exact ⟨rfl, rfl⟩

theorem ensures_write {p : Nat} {v : α} {m : Mem α} :
    Ensures (write p v) m fun _ m' => SameDom m m' ∧ (m p).isSome := by
  intro b m' h
  unfold write at h
  cases hm : m p with
  | none => rw [hm] at h; cases h
  | some w =>
    rw [hm] at h; cases h
    refine ⟨fun a => ?_, rfl⟩
    by_cases ha : a = p
    · subst ha; simp [hm]
    · simp [ha]

theorem ensures_readVec {w p : Nat} {m : Mem α} :
    Ensures (readVec w p) m fun _ m' => m' = m ∧ Allocated m p w := by
  intro b m' h
  unfold readVec at h
  by_cases hal : m.allocated p w
  · rw [dif_pos hal] at h; cases h
    exact ⟨rfl, fun i hi => hal ⟨i, hi⟩⟩
  · rw [dif_neg hal] at h; cases h

theorem ensures_writeVec {w p : Nat} {v : Vec α w} {m : Mem α} :
    Ensures (writeVec v p) m fun _ m' => SameDom m m' ∧ Allocated m p w := by
  intro b m' h
  unfold writeVec at h
  by_cases hal : m.allocated p w
  · rw [if_pos hal] at h; cases h
    refine ⟨fun a => ?_, fun i hi => hal ⟨i, hi⟩⟩
    by_cases ha : p ≤ a ∧ a < p + w
    · simp only [dif_pos ha]
      have := hal ⟨a - p, by omega⟩
      simp only at this
      rw [show p + (a - p) = a by omega] at this
      simp [this]
    · simp only [dif_neg ha]
  · rw [if_neg hal] at h; cases h

theorem ensures_iterM {body : σ → Exec α σ} {Inv : Nat → σ → Mem α → Prop} {Q : Nat → Prop}
    (hstep : ∀ k s m, Inv k s m → Ensures (body s) m fun s' m' => Inv (k + 1) s' m' ∧ Q k) :
    ∀ K j s m, Inv j s m → Ensures (iterM body K s) m fun s' m' =>
      Inv (j + K) s' m' ∧ ∀ k, j ≤ k → k < j + K → Q k
  | 0, j, s, m, h0 => by
      rw [iterM]
      exact Ensures.pure ⟨h0, fun k h1 h2 => by omega⟩
  | K + 1, j, s, m, h0 => by
      rw [iterM]
      apply Ensures.bind
      refine Ensures.mono (hstep j s m h0) ?_
      intro s' m' ⟨hi, hq⟩
      refine Ensures.mono (ensures_iterM hstep K (j + 1) s' m' hi) ?_
      intro s'' m'' ⟨hi', hq'⟩
      refine ⟨by rw [show j + (K + 1) = j + 1 + K by omega]; exact hi', fun k h1 h2 => ?_⟩
      rcases Nat.eq_or_lt_of_le h1 with h | h
      · subst h; exact hq
      · exact hq' k (by omega) (by omega)

/-! ## SIMD loops -/
section simd
variable {I : VecImpl α} {al : Nat}

/-- The memory accesses of a vector class do not change what is allocated. -/
structure VecImpl.DomLaws (I : VecImpl α) : Prop where
  loadAligned : ∀ p m, Ensures (I.loadAligned p) m fun _ m' => m' = m

theorem Target.domLaws (t : Target) (E : Env α) : (t.vec E).DomLaws where
  loadAligned := by
    intro p m
    have haux : ∀ w q, Ensures (alignedAt w q (readVec w q : Exec α _)) m fun _ m' => m' = m := by
      intro w q
      unfold alignedAt
      split
      · exact ensures_readVec.mono fun _ _ h => h.1
      · exact Ensures.fail
    cases t with
    | genericFloat => exact ensures_readVec.mono fun _ _ h => h.1
    | genericDouble => exact ensures_readVec.mono fun _ _ h => h.1
    | sse => exact haux 4 p
    | sse2 => exact haux 2 p
    | avxFloat => exact haux 8 p
    | avxDouble => exact haux 4 p
    | neon => exact ensures_readVec.mono fun _ _ h => h.1
    | altivec => exact ensures_readVec.mono fun _ _ h => h.1

theorem ensures_consume (hI : I.DomLaws) (a : VA I) (m : Mem α) :
    Ensures (a.consume I) m fun _ m' => m' = m := by
  cases a with
  | ptr p =>
    apply Ensures.bind
    refine Ensures.mono (hI.loadAligned p m) ?_
    intro _ m' h
    exact Ensures.pure h
  | scalar c => exact Ensures.pure rfl
  | ramp d s => exact Ensures.pure rfl

theorem ensures_consume2 (hI : I.DomLaws) (a : VA I × VA I) (m : Mem α) :
    Ensures (consume2 I a) m fun _ m' => m' = m := by
  apply Ensures.bind
  refine Ensures.mono (ensures_consume hI a.1 m) ?_
  rintro _ m' rfl
  apply Ensures.bind
  refine Ensures.mono (ensures_consume hI a.2 _) ?_
  rintro _ m' rfl
  exact Ensures.pure rfl

theorem ensures_consume3 (hI : I.DomLaws) (a : VA I × VA I × VA I) (m : Mem α) :
    Ensures (consume3 I a) m fun _ m' => m' = m := by
  apply Ensures.bind
  refine Ensures.mono (ensures_consume hI a.1 m) ?_
  rintro _ m' rfl
  apply Ensures.bind
  refine Ensures.mono (ensures_consume hI a.2.1 _) ?_
  rintro _ m' rfl
  apply Ensures.bind
  refine Ensures.mono (ensures_consume hI a.2.2 _) ?_
  rintro _ m' rfl
  exact Ensures.pure rfl

theorem ensures_consume4 (hI : I.DomLaws) (a : VA I × VA I × VA I × VA I) (m : Mem α) :
    Ensures (consume4 I a) m fun _ m' => m' = m := by
  apply Ensures.bind
  refine Ensures.mono (ensures_consume hI a.1 m) ?_
  rintro _ m' rfl
  apply Ensures.bind
  refine Ensures.mono (ensures_consume hI a.2.1 _) ?_
  rintro _ m' rfl
  apply Ensures.bind
  refine Ensures.mono (ensures_consume hI a.2.2.1 _) ?_
  rintro _ m' rfl
  apply Ensures.bind
  refine Ensures.mono (ensures_consume hI a.2.2.2 _) ?_
  rintro _ m' rfl
  exact Ensures.pure rfl

/-- A successful unrolled block has written all its cells. -/
theorem ensures_mpIterG (hI : I.Lawful al) {consume : σ → Exec α (β × σ)}
    {f : β → Except Fault I.V} (hc : ∀ s m, Ensures (consume s) m fun _ m' => m' = m) :
    ∀ N out l s m, al ∣ out → Ensures (mpIterG I consume f N out l s) m fun _ m' =>
      SameDom m m' ∧ Allocated m out N := by
  intro N
  induction N using Nat.strongRecOn with
  | ind N ih =>
    intro out l s m hal
    rw [mpIterG]
    by_cases h0 : N = 0
    · rw [if_pos h0]
      exact Ensures.pure ⟨SameDom.refl m, fun i hi => by omega⟩
    · rw [if_neg h0]
      by_cases h1 : N < I.size
      · rw [dif_pos h1]; exact Ensures.fail
      · rw [dif_neg h1]
        apply Ensures.bind
        have hpre : Ensures (if N ≠ I.size then do
            let (v, s) ← consume s
            pure (some v, s)
          else pure (none, s)) m fun (_ : Option β × σ) m' => m' = m := by
          split
          · apply Ensures.bind
            refine Ensures.mono (hc s m) ?_
            rintro _ _ rfl
            exact Ensures.pure rfl
          · exact Ensures.pure rfl
        refine Ensures.mono hpre ?_
        rintro ⟨nxt, s'⟩ _ rfl
        apply Ensures.bind
        cases l with
        | none => exact Ensures.fail
        | some x =>
          apply Ensures.pure
          apply Ensures.bind
          apply Ensures.lift
          intro r _
          apply Ensures.bind
          rw [hI.storeAligned _ _ hal]
          refine Ensures.mono ensures_writeVec ?_
          intro _ m1 ⟨hd, ha⟩
          have hp := I.size_pos
          refine Ensures.mono (ih (N - I.size) (by omega) (out + I.size) nxt s' m1
            (Nat.dvd_add hal hI.al_dvd)) ?_
          intro _ m2 ⟨hd2, ha2⟩
          refine ⟨hd.trans hd2, fun i hi => ?_⟩
          by_cases hi2 : i < I.size
          · exact ha i hi2
          · have := ha2 (i - I.size) (by omega)
            rw [show out + I.size + (i - I.size) = out + i by omega, hd] at this
            exact this

theorem ensures_runG (hI : I.Lawful al) {consume : σ → Exec α (β × σ)}
    {f : β → Except Fault I.V} (hc : ∀ s m, Ensures (consume s) m fun _ m' => m' = m)
    {N out : Nat} {s : σ} {m : Mem α} (hal : al ∣ out) :
    Ensures (runG I consume f N out s) m fun _ m' => SameDom m m' ∧ Allocated m out N := by
  unfold runG
  split
  · exact Ensures.fail
  · apply Ensures.bind
    refine Ensures.mono (hc s m) ?_
    rintro _ _ rfl
    exact ensures_mpIterG hI hc _ _ _ _ _ hal

/-- A successful SIMD loop has written `tripCount (n / perLine)` blocks. -/
theorem ensures_simdLoopG (hI : I.Lawful al) {consume : σ → Exec α (β × σ)}
    {f : β → Except Fault I.V} (hc : ∀ s m, Ensures (consume s) m fun _ m' => m' = m)
    {n : BitVec 32} {out : Nat} {s : σ} {m : Mem α} (hal : al ∣ out) :
    Ensures (simdLoopG I consume f out s n) m fun _ _ =>
      Allocated m out (tripCount (n / BitVec.ofNat 32 I.perLine) * I.perLine) := by
  unfold simdLoopG
  apply Ensures.bind
  rw [doWhile_eq_iterM]
  have hdl : al ∣ I.perLine := Nat.dvd_trans hI.al_dvd hI.line_dvd
  refine Ensures.mono (ensures_iterM
    (Inv := fun k t m' => t.1 = out + k * I.perLine ∧ SameDom m m')
    (Q := fun k => Allocated m (out + k * I.perLine) I.perLine) (by
      rintro k ⟨o, s⟩ m1 ⟨ho, hd⟩
      simp only at ho
      subst ho
      apply Ensures.bind
      refine Ensures.mono (ensures_runG hI hc (Nat.dvd_add hal (Nat.dvd_trans hdl (Nat.dvd_mul_left _ _)))) ?_
      intro s' m2 ⟨hd2, ha2⟩
      apply Ensures.pure
      exact ⟨⟨by rw [Nat.succ_mul, Nat.add_assoc], hd.trans hd2⟩,
        fun i hi => by rw [← hd]; exact ha2 i hi⟩) _ 0 (out, s) m
      ⟨by simp, SameDom.refl m⟩) ?_
  intro s' m' ⟨_, hq⟩
  apply Ensures.pure
  intro i hi
  have hpos := hI.line_pos
  have hlt : i / I.perLine < tripCount (n / BitVec.ofNat 32 I.perLine) :=
    (Nat.div_lt_iff_lt_mul hpos).mpr hi
  have := hq (i / I.perLine) (Nat.zero_le _) (by omega) (i % I.perLine) (Nat.mod_lt _ hpos)
  rw [Nat.add_assoc, Nat.mul_comm, Nat.div_add_mod] at this
  exact this

end simd

/-! ## Scalar loops -/

theorem ensures_sget (a : SArg α) (m : Mem α) : Ensures a.get m fun _ m' => m' = m := by
  cases a with
  | ptr p => exact ensures_read.mono fun _ _ h => h.1
  | scalar c => exact Ensures.pure rfl
  | ramp b s => exact Ensures.pure rfl

/-- A successful `do … while (--n)` loop whose body writes one output cell. -/
theorem ensures_scalarLoop {body : Nat × σ → Exec α (Nat × σ)}
    (hb : ∀ o s m, Ensures (body (o, s)) m fun r m' =>
      r.1 = o + 1 ∧ SameDom m m' ∧ (m o).isSome)
    {n : BitVec 32} {out : Nat} {s : σ} {m : Mem α} :
    Ensures (doWhile body n (out, s)) m fun _ _ => Allocated m out (tripCount n) := by
  rw [doWhile_eq_iterM]
  refine Ensures.mono (ensures_iterM (Inv := fun k t m' => t.1 = out + k ∧ SameDom m m')
    (Q := fun k => (m (out + k)).isSome) (by
      rintro k ⟨o, s⟩ m1 ⟨ho, hd⟩
      simp only at ho
      subst ho
      refine Ensures.mono (hb (out + k) s m1) ?_
      intro r m2 ⟨hr, hd2, ha⟩
      exact ⟨⟨by rw [hr, Nat.add_assoc], hd.trans hd2⟩, by rw [← hd]; exact ha⟩) _ 0 (out, s) m
      ⟨rfl, SameDom.refl m⟩) ?_
  intro s' m' ⟨_, hq⟩ i hi
  exact hq i (Nat.zero_le _) (by omega)

theorem ensures_performVec1 {f : α → Except Fault α} {out inp : Nat} {n : BitVec 32} {m : Mem α} :
    Ensures (performVec1 f out inp n) m fun _ _ => Allocated m out (tripCount n) := by
  apply Ensures.bind
  refine Ensures.mono (ensures_scalarLoop (by
    intro o s m
    apply Ensures.bind
    refine Ensures.mono ensures_read ?_
    rintro x _ ⟨rfl, _⟩
    apply Ensures.bind
    apply Ensures.lift
    intro y _
    apply Ensures.bind
    refine Ensures.mono ensures_write ?_
    intro _ m2 ⟨h1, h2⟩
    exact Ensures.pure ⟨rfl, h1, h2⟩)) ?_
  intro _ _ h
  exact Ensures.pure h

theorem ensures_performVec2 {A : Arith α} {f : α → α → α} {out : Nat} {a b : SArg α}
    {n : BitVec 32} {m : Mem α} :
    Ensures (performVec2 A f out a b n) m fun _ _ => Allocated m out (tripCount n) := by
  apply Ensures.bind
  refine Ensures.mono (ensures_scalarLoop (by
    rintro o ⟨s1, s2⟩ m
    apply Ensures.bind
    refine Ensures.mono (ensures_sget s1 m) ?_
    rintro _ _ rfl
    apply Ensures.bind
    refine Ensures.mono (ensures_sget s2 _) ?_
    rintro _ _ rfl
    apply Ensures.bind
    refine Ensures.mono ensures_write ?_
    intro _ m2 ⟨h1, h2⟩
    exact Ensures.pure ⟨rfl, h1, h2⟩)) ?_
  intro _ _ h
  exact Ensures.pure h

theorem ensures_performVec3 {A : Arith α} {f : α → α → α → α} {out : Nat} {a b c : SArg α}
    {n : BitVec 32} {m : Mem α} :
    Ensures (performVec3 A f out a b c n) m fun _ _ => Allocated m out (tripCount n) := by
  apply Ensures.bind
  refine Ensures.mono (ensures_scalarLoop (by
    rintro o ⟨s1, s2, s3⟩ m
    apply Ensures.bind
    refine Ensures.mono (ensures_sget s1 m) ?_
    rintro _ _ rfl
    apply Ensures.bind
    refine Ensures.mono (ensures_sget s2 _) ?_
    rintro _ _ rfl
    apply Ensures.bind
    refine Ensures.mono (ensures_sget s3 _) ?_
    rintro _ _ rfl
    apply Ensures.bind
    refine Ensures.mono ensures_write ?_
    intro _ m2 ⟨h1, h2⟩
    exact Ensures.pure ⟨rfl, h1, h2⟩)) ?_
  intro _ _ h
  exact Ensures.pure h

theorem ensures_performVec4 {A : Arith α} {f : α → α → α → α → α} {out : Nat}
    {a b c d : SArg α} {n : BitVec 32} {m : Mem α} :
    Ensures (performVec4 A f out a b c d n) m fun _ _ => Allocated m out (tripCount n) := by
  apply Ensures.bind
  refine Ensures.mono (ensures_scalarLoop (by
    rintro o ⟨s1, s2, s3, s4⟩ m
    apply Ensures.bind
    refine Ensures.mono (ensures_sget s1 m) ?_
    rintro _ _ rfl
    apply Ensures.bind
    refine Ensures.mono (ensures_sget s2 _) ?_
    rintro _ _ rfl
    apply Ensures.bind
    refine Ensures.mono (ensures_sget s3 _) ?_
    rintro _ _ rfl
    apply Ensures.bind
    refine Ensures.mono (ensures_sget s4 _) ?_
    rintro _ _ rfl
    apply Ensures.bind
    refine Ensures.mono ensures_write ?_
    intro _ m2 ⟨h1, h2⟩
    exact Ensures.pure ⟨rfl, h1, h2⟩)) ?_
  intro _ _ h
  exact Ensures.pure h

/-- A program that does not succeed faults. -/
theorem faults_of_ensures {x : Exec α β} {m : Mem α} {P : Prop}
    (h : Ensures x m fun _ _ => P) (hP : ¬ P) : ∃ e, x m = .error e := by
  cases hx : x m with
  | error e => exact ⟨e, rfl⟩
  | ok r =>
    obtain ⟨b, m'⟩ := r
    exact absurd (h b m' hx) hP

end Nova
