import Mathlib.Algebra.BigOperators.Group.Finset.Basic
import Mathlib.Algebra.BigOperators.Group.Finset.Piecewise
import Mathlib.Data.Fintype.Basic
import Mathlib.Logic.Function.Basic
import Mathlib.Algebra.Order.BigOperators.Group.Finset
import Verif.SpecThreads

/-!
# Race-free threads do not influence each other
-/

namespace Nova
open Spec
variable {α β ι : Type}

namespace Prog
open Spec.Prog

/-- Number of accesses of a program that runs alone. -/
def len : Prog α β → Mem α → Nat
  | .ret _, _ => 0
  | .fail _, _ => 0
  | .read a _ k, m =>
      match m a with
      | some v => len (k v) m + 1
      | none => 1
  | .write a v _ k, m =>
      match m a with
      | some _ => len k (fun c => if c = a then some v else m c) + 1
      | none => 1

theorem run_frame {R W : Nat → Prop} {p : Prog α β} (hp : p.Within R W) {m m' : Mem α} {b : β}
    (h : p.run m = .ok (b, m')) {a : Nat} (ha : ¬ W a) : m' a = m a := by
  induction p generalizing m with
  | ret b => cases h; rfl
  | fail e => cases h
  | read c e k ih =>
    unfold Prog.run at h
    cases hc : m c with
    | none => rw [hc] at h; cases h
    | some v => rw [hc] at h; exact ih v (hp.2 v) h
  | write c v e k ih =>
    unfold Prog.run at h
    cases hc : m c with
    | none => rw [hc] at h; cases h
    | some w =>
      rw [hc] at h
      rw [ih hp.2 h]
      exact if_neg fun (e : a = _) => ha (by rw [e]; exact hp.1)

theorem run_agree {R W : Nat → Prop} {p : Prog α β} (hp : p.Within R W) {m1 m2 m1' : Mem α} {b : β}
    (h : p.run m1 = .ok (b, m1')) (ha : ∀ a, R a ∨ W a → m2 a = m1 a) :
    (∃ m2', p.run m2 = .ok (b, m2') ∧ ∀ a, R a ∨ W a → m2' a = m1' a) ∧ len p m2 = len p m1 := by
  induction p generalizing m1 m2 with
  | ret b => cases h; exact ⟨⟨m2, rfl, ha⟩, rfl⟩
  | fail e => cases h
  | read c e k ih =>
    unfold Prog.run at h
    have e2 : m2 c = m1 c := ha c (Or.inl hp.1)
    cases hc : m1 c with
    | none => rw [hc] at h; cases h
    | some v =>
      rw [hc] at h e2
      unfold Prog.run len
      rw [hc, e2]
      obtain ⟨h1, h2⟩ := ih v (hp.2 v) h ha
      exact ⟨h1, congrArg (· + 1) h2⟩
  | write c v e k ih =>
    unfold Prog.run at h
    have e2 : m2 c = m1 c := ha c (Or.inr hp.1)
    cases hc : m1 c with
    | none => rw [hc] at h; cases h
    | some w =>
      rw [hc] at h e2
      unfold Prog.run len
      rw [hc, e2]
      obtain ⟨h1, h2⟩ := ih hp.2 h (m2 := fun a => if a = c then some v else m2 a) fun a h => by
        show (if a = c then some v else m2 a) = if a = c then some v else m1 a
        rw [ha a h]
      exact ⟨h1, congrArg (· + 1) h2⟩

/-- A step of the thread that runs does not change what it will compute. -/
theorem step_run {p p' : Prog α β} {m m' : Mem α} (h : Step p m p' m') : p'.run m' = p.run m := by
  cases h with
  | read h => conv => rhs; unfold Prog.run; rw [h]
  | readFault h => conv => rhs; unfold Prog.run; rw [h]
                   rfl
  | write h =>
    obtain ⟨w, hw⟩ := Option.isSome_iff_exists.mp h
    conv => rhs; unfold Prog.run; rw [hw]
  | writeFault h => conv => rhs; unfold Prog.run; rw [h]
                    rfl

theorem step_len {p p' : Prog α β} {m m' : Mem α} (h : Step p m p' m') : len p m = len p' m' + 1 := by
  cases h with
  | read h => conv => lhs; unfold len; rw [h]
  | readFault h => conv => lhs; unfold len; rw [h]
                   rfl
  | write h =>
    obtain ⟨w, hw⟩ := Option.isSome_iff_exists.mp h
    conv => lhs; unfold len; rw [hw]
  | writeFault h => conv => lhs; unfold len; rw [h]
                    rfl

theorem step_within {R W : Nat → Prop} {p p' : Prog α β} {m m' : Mem α} (h : Step p m p' m')
    (hp : p.Within R W) : p'.Within R W := by
  cases h with
  | read h => exact hp.2 _
  | readFault h => trivial
  | write h => exact hp.2
  | writeFault h => trivial

theorem step_frame {R W : Nat → Prop} {p p' : Prog α β} {m m' : Mem α} (h : Step p m p' m')
    (hp : p.Within R W) {a : Nat} (ha : ¬ W a) : m' a = m a := by
  cases h with
  | read h => rfl
  | readFault h => rfl
  | write h => exact if_neg fun (e : a = _) => ha (by rw [e]; exact hp.1)
  | writeFault h => rfl

/-- A program that is not finished and will not fault can make a step. -/
theorem can_step {p : Prog α β} {m m' : Mem α} {b : β} (h : p.run m = .ok (b, m')) :
    (∃ b, p = .ret b) ∨ ∃ q m'', Step p m q m'' := by
  cases p with
  | ret b => exact Or.inl ⟨b, rfl⟩
  | fail e => cases h
  | read a e k =>
    right
    cases hc : m a with
    | none => exact ⟨_, _, .readFault hc⟩
    | some v => exact ⟨_, _, .read hc⟩
  | write a v e k =>
    right
    cases hc : m a with
    | none => exact ⟨_, _, .writeFault hc⟩
    | some v => exact ⟨_, _, .write (by rw [hc]; rfl)⟩

end Prog

section threads
variable [DecidableEq ι] {R W : ι → Nat → Prop} {ps : ι → Prog α β} {m : Mem α} {res : ι → β}
  {M : ι → Mem α}

/-- What every reachable state satisfies. -/
structure Going (R W : ι → Nat → Prop) (m : Mem α) (res : ι → β) (M : ι → Mem α) (qs : ι → Prog α β)
    (mc : Mem α) : Prop where
  within : ∀ i, (qs i).Within (R i) (W i)
  rest : ∀ i, ∃ m', (qs i).run mc = .ok (res i, m') ∧ ∀ a, R i a ∨ W i a → m' a = M i a
  outside : ∀ a, (∀ i, ¬ W i a) → mc a = m a

omit [DecidableEq ι] in
theorem Going.start (hw : ∀ i, (ps i).Within (R i) (W i)) (hr : ∀ i, (ps i).run m = .ok (res i, M i)) :
    Going R W m res M ps m :=
  ⟨hw, fun i => ⟨M i, hr i, fun _ _ => rfl⟩, fun _ _ => rfl⟩

theorem Going.step (hrace : RaceFree R W) {qs : ι → Prog α β} {mc m' : Mem α} {j : ι} {p : Prog α β}
    (h : Going R W m res M qs mc) (hs : Step (qs j) mc p m') :
    Going R W m res M (Function.update qs j p) m' := by
  refine ⟨fun i => ?_, fun i => ?_, fun a ha => ?_⟩
  · by_cases e : i = j
    · subst e; rw [Function.update_self]; exact Prog.step_within hs (h.within i)
    · rw [Function.update_of_ne e]; exact h.within i
  · by_cases e : i = j
    · subst e
      rw [Function.update_self, Prog.step_run hs]
      exact h.rest i
    · rw [Function.update_of_ne e]
      obtain ⟨m1, h1, h2⟩ := h.rest i
      obtain ⟨⟨m2, h3, h4⟩, -⟩ := Prog.run_agree (h.within i) h1 (m2 := m') fun a ha =>
        Prog.step_frame hs (h.within j) fun hw => by
          have := hrace j i (Ne.symm e) a hw
          rcases ha with ha | ha
          · exact this.1 ha
          · exact this.2 ha
      exact ⟨m2, h3, fun a ha => (h4 a ha).trans (h2 a ha)⟩
  · rw [Prog.step_frame hs (h.within j) (ha j)]
    exact h.outside a ha

theorem Going.steps (hrace : RaceFree R W) (hw : ∀ i, (ps i).Within (R i) (W i))
    (hr : ∀ i, (ps i).run m = .ok (res i, M i)) {T : Nat} {qs : ι → Prog α β} {mc : Mem α}
    (h : Steps ps m T qs mc) : Going R W m res M qs mc := by
  induction h with
  | refl => exact Going.start hw hr
  | step _ hs ih => exact ih.step hrace hs

/-- The number of accesses that remain. -/
theorem Going.len [Fintype ι] (hrace : RaceFree R W) {qs : ι → Prog α β} {mc m' : Mem α} {j : ι}
    {p : Prog α β} (h : Going R W m res M qs mc) (hs : Step (qs j) mc p m') :
    ∑ i, Prog.len (qs i) mc = ∑ i, Prog.len (Function.update qs j p i) m' + 1 := by
  rw [← Finset.add_sum_erase _ _ (Finset.mem_univ j),
    ← Finset.add_sum_erase _ (fun i => Prog.len (Function.update qs j p i) m') (Finset.mem_univ j)]
  rw [Function.update_self, Prog.step_len hs]
  have : ∑ i ∈ Finset.univ.erase j, Prog.len (qs i) mc
      = ∑ i ∈ Finset.univ.erase j, Prog.len (Function.update qs j p i) m' := by
    refine Finset.sum_congr rfl fun i hi => ?_
    have e : i ≠ j := Finset.ne_of_mem_erase hi
    rw [Function.update_of_ne e]
    obtain ⟨m1, h1, -⟩ := h.rest i
    refine (Prog.run_agree (h.within i) h1 (m2 := m') fun a ha =>
      Prog.step_frame hs (h.within j) fun hw => ?_).2.symm
    have := hrace j i (Ne.symm e) a hw
    rcases ha with ha | ha
    · exact this.1 ha
    · exact this.2 ha
  rw [this]
  omega

theorem Going.total [Fintype ι] (hrace : RaceFree R W) (hw : ∀ i, (ps i).Within (R i) (W i))
    (hr : ∀ i, (ps i).run m = .ok (res i, M i)) {T : Nat} {qs : ι → Prog α β} {mc : Mem α}
    (h : Steps ps m T qs mc) : ∑ i, Prog.len (ps i) m = T + ∑ i, Prog.len (qs i) mc := by
  induction h with
  | refl => omega
  | step h0 hs ih =>
    rw [ih, (Going.steps hrace hw hr h0).len hrace hs]
    omega

omit [DecidableEq ι] in
theorem Going.finish {qs : ι → Prog α β} {mc : Mem α} (h : Going R W m res M qs mc) (hf : ∀ i, ∃ b, qs i = .ret b) :
    (∀ i, qs i = .ret (res i)) ∧ (∀ i a, W i a → mc a = M i a) ∧ ∀ a, (∀ i, ¬ W i a) → mc a = m a := by
  have hb : ∀ i, qs i = .ret (res i) ∧ ∀ a, R i a ∨ W i a → mc a = M i a := by
    intro i
    obtain ⟨b, hb⟩ := hf i
    obtain ⟨m1, h1, h2⟩ := h.rest i
    rw [hb] at h1
    cases h1
    exact ⟨hb, h2⟩
  exact ⟨fun i => (hb i).1, fun i a ha => (hb i).2 a (Or.inr ha), h.outside⟩

theorem Prog.len_zero {p : Prog α β} {m m' : Mem α} {b : β} (h : p.run m = .ok (b, m'))
    (h0 : Prog.len p m = 0) : ∃ b, p = .ret b := by
  rcases Prog.can_step h with h | ⟨q, m'', hs⟩
  · exact h
  · rw [Prog.step_len hs] at h0
    omega

/-- Race-free threads that run without fault alone do so together. -/
theorem allSchedules [Fintype ι] (hrace : RaceFree R W) (hw : ∀ i, (ps i).Within (R i) (W i))
    (hr : ∀ i, (ps i).run m = .ok (res i, M i)) {mF : Mem α} (hin : ∀ i a, W i a → mF a = M i a)
    (hout : ∀ a, (∀ i, ¬ W i a) → mF a = m a) : AllSchedules ps m res mF := by
  refine ⟨∑ i, Prog.len (ps i) m, fun t qs m' hs => ?_⟩
  have hg := Going.steps hrace hw hr hs
  have ht := Going.total hrace hw hr hs
  refine ⟨by omega, fun hlt => ?_, fun he => ?_, fun i e hf => ?_⟩
  · have : ∑ i, Prog.len (qs i) m' ≠ 0 := by omega
    obtain ⟨i, -, hi⟩ := Finset.exists_ne_zero_of_sum_ne_zero this
    obtain ⟨m1, h1, -⟩ := hg.rest i
    rcases Prog.can_step h1 with ⟨b, hb⟩ | ⟨q, m'', h2⟩
    · rw [hb] at hi
      exact absurd rfl hi
    · exact ⟨i, q, m'', h2⟩
  · have h0 : ∑ i, Prog.len (qs i) m' = 0 := by omega
    have hz : ∀ i, Prog.len (qs i) m' = 0 := fun i =>
      Finset.sum_eq_zero_iff.mp h0 i (Finset.mem_univ i)
    obtain ⟨h1, h2, h3⟩ := hg.finish fun i => by
      obtain ⟨m1, h1, -⟩ := hg.rest i
      exact Prog.len_zero h1 (hz i)
    refine ⟨h1, funext fun a => ?_⟩
    by_cases ha : ∃ i, W i a
    · obtain ⟨i, hi⟩ := ha
      rw [h2 i a hi, hin i a hi]
    · have ha : ∀ i, ¬ W i a := fun i hi => ha ⟨i, hi⟩
      rw [h3 a ha, hout a ha]
  · obtain ⟨m1, h1, -⟩ := hg.rest i
    rw [hf] at h1
    cases h1

end threads

end Nova
