import Verif.Lemmas.Loops

/-!
# The four arities of the unroller are instances of the bundled one (helper lemmas)
-/

namespace Nova
variable {α : Type} (I : VecImpl α)

abbrev VA (I : VecImpl α) : Type := VArg α I.size

def consume2 (s : VA I × VA I) : Exec α ((I.V × I.V) × (VA I × VA I)) := do
  let (v1, a1) ← s.1.consume I
  let (v2, a2) ← s.2.consume I
  pure ((v1, v2), (a1, a2))

def consume3 (s : VA I × VA I × VA I) : Exec α ((I.V × I.V × I.V) × (VA I × VA I × VA I)) := do
  let (v1, a1) ← s.1.consume I
  let (v2, a2) ← s.2.1.consume I
  let (v3, a3) ← s.2.2.consume I
  pure ((v1, v2, v3), (a1, a2, a3))

def consume4 (s : VA I × VA I × VA I × VA I) :
    Exec α ((I.V × I.V × I.V × I.V) × (VA I × VA I × VA I × VA I)) := do
  let (v1, a1) ← s.1.consume I
  let (v2, a2) ← s.2.1.consume I
  let (v3, a3) ← s.2.2.1.consume I
  let (v4, a4) ← s.2.2.2.consume I
  pure ((v1, v2, v3, v4), (a1, a2, a3, a4))

def pair {β γ : Type} : Option β → Option γ → Option (β × γ)
  | some a, some b => some (a, b)
  | _, _ => none

variable {I}

theorem mpIteration1_eq (f : I.V → Except Fault I.V) (N out : Nat) (l : Option I.V) (a : VA I) :
    mpIteration1 I f N out l a = mpIterG I (VArg.consume I) f N out l a := by
  induction N using Nat.strongRecOn generalizing out l a with
  | ind N ih =>
    rw [mpIteration1, mpIterG]
    by_cases h0 : N = 0
    · simp [h0]
    · rw [if_neg h0, if_neg h0]
      by_cases h1 : N < I.size
      · rw [dif_pos h1, dif_pos h1]
      · rw [dif_neg h1, dif_neg h1]
        have hp := I.size_pos
        simp only [ih (N - I.size) (by omega), prefetch]

theorem mpIteration2_eq (f : I.V → I.V → I.V) (N out : Nat) (l1 l2 : Option I.V) (a1 a2 : VA I) :
    mpIteration2 I f N out l1 a1 l2 a2 =
      mpIterG I (consume2 I) (fun p => .ok (f p.1 p.2)) N out (pair l1 l2) (a1, a2) := by
  induction N using Nat.strongRecOn generalizing out l1 l2 a1 a2 with
  | ind N ih =>
    rw [mpIteration2, mpIterG]
    by_cases h0 : N = 0
    · simp [h0]
    · rw [if_neg h0, if_neg h0]
      by_cases h1 : N < I.size
      · rw [dif_pos h1, dif_pos h1]
      · rw [dif_neg h1, dif_neg h1]
        have hp := I.size_pos
        by_cases h2 : N = I.size
        · simp only [ih (N - I.size) (by omega)]
          simp only [prefetch, h2, ne_eq, not_true, if_false, pure_bind]
          cases l1 <;> cases l2 <;> simp [pair, initialised]
        · simp only [ih (N - I.size) (by omega)]
          simp only [prefetch, h2, ne_eq, not_false_eq_true, if_true, bind_assoc, pure_bind,
            consume2]
          cases l1 <;> cases l2 <;> simp [pair, initialised]

theorem mpIteration3_eq (f : I.V → I.V → I.V → I.V) (N out : Nat) (l1 l2 l3 : Option I.V) (a1 a2 a3 : VA I) :
    mpIteration3 I f N out l1 a1 l2 a2 l3 a3 =
      mpIterG I (consume3 I) (fun p => .ok (f p.1 p.2.1 p.2.2)) N out (pair l1 (pair l2 l3)) (a1, a2, a3) := by
  induction N using Nat.strongRecOn generalizing out l1 l2 l3 a1 a2 a3 with
  | ind N ih =>
    rw [mpIteration3, mpIterG]
    by_cases h0 : N = 0
    · simp [h0]
    · rw [if_neg h0, if_neg h0]
      by_cases h1 : N < I.size
      · rw [dif_pos h1, dif_pos h1]
      · rw [dif_neg h1, dif_neg h1]
        have hp := I.size_pos
        by_cases h2 : N = I.size
        · simp only [ih (N - I.size) (by omega)]
          simp only [prefetch, h2, ne_eq, not_true, if_false, pure_bind]
          cases l1 <;> cases l2 <;> cases l3 <;> simp [pair, initialised]
        · simp only [ih (N - I.size) (by omega)]
          simp only [prefetch, h2, ne_eq, not_false_eq_true, if_true, bind_assoc, pure_bind,
            consume3]
          cases l1 <;> cases l2 <;> cases l3 <;> simp [pair, initialised]

theorem mpIteration4_eq (f : I.V → I.V → I.V → I.V → I.V) (N out : Nat) (l1 l2 l3 l4 : Option I.V) (a1 a2 a3 a4 : VA I) :
    mpIteration4 I f N out l1 a1 l2 a2 l3 a3 l4 a4 =
      mpIterG I (consume4 I) (fun p => .ok (f p.1 p.2.1 p.2.2.1 p.2.2.2)) N out (pair l1 (pair l2 (pair l3 l4))) (a1, a2, a3, a4) := by
  induction N using Nat.strongRecOn generalizing out l1 l2 l3 l4 a1 a2 a3 a4 with
  | ind N ih =>
    rw [mpIteration4, mpIterG]
    by_cases h0 : N = 0
    · simp [h0]
    · rw [if_neg h0, if_neg h0]
      by_cases h1 : N < I.size
      · rw [dif_pos h1, dif_pos h1]
      · rw [dif_neg h1, dif_neg h1]
        have hp := I.size_pos
        by_cases h2 : N = I.size
        · simp only [ih (N - I.size) (by omega)]
          simp only [prefetch, h2, ne_eq, not_true, if_false, pure_bind]
          cases l1 <;> cases l2 <;> cases l3 <;> cases l4 <;> simp [pair, initialised]
        · simp only [ih (N - I.size) (by omega)]
          simp only [prefetch, h2, ne_eq, not_false_eq_true, if_true, bind_assoc, pure_bind,
            consume4]
          cases l1 <;> cases l2 <;> cases l3 <;> cases l4 <;> simp [pair, initialised]

theorem run1_eq (f : I.V → Except Fault I.V) (N out : Nat) (a : VA I) :
    run1 I f N out a = runG I (VArg.consume I) f N out a := by
  simp only [run1, runG, mpIteration1_eq]

theorem simdLoop1_eq (f : I.V → Except Fault I.V) (out : Nat) (a : VA I) (n : BitVec 32) :
    simdLoop1 I f out a n = simdLoopG I (VArg.consume I) f out a n := by
  simp only [simdLoop1, simdLoopG, run1_eq]

theorem run2_eq (f : I.V → I.V → I.V) (N out : Nat) (a1 a2 : VA I) :
    run2 I f N out a1 a2 = runG I (consume2 I) (fun p => .ok (f p.1 p.2)) N out (a1, a2) := by
  simp only [run2, runG, mpIteration2_eq, consume2, bind_assoc, pure_bind, pair]

theorem simdLoop2_eq (f : I.V → I.V → I.V) (out : Nat) (a1 a2 : VA I) (n : BitVec 32) :
    simdLoop2 I f out a1 a2 n =
      simdLoopG I (consume2 I) (fun p => .ok (f p.1 p.2)) out (a1, a2) n := by
  simp only [simdLoop2, simdLoopG, run2_eq]

theorem run3_eq (f : I.V → I.V → I.V → I.V) (N out : Nat) (a1 a2 a3 : VA I) :
    run3 I f N out a1 a2 a3 = runG I (consume3 I) (fun p => .ok (f p.1 p.2.1 p.2.2)) N out (a1, a2, a3) := by
  simp only [run3, runG, mpIteration3_eq, consume3, bind_assoc, pure_bind, pair]

theorem simdLoop3_eq (f : I.V → I.V → I.V → I.V) (out : Nat) (a1 a2 a3 : VA I) (n : BitVec 32) :
    simdLoop3 I f out a1 a2 a3 n =
      simdLoopG I (consume3 I) (fun p => .ok (f p.1 p.2.1 p.2.2)) out (a1, a2, a3) n := by
  simp only [simdLoop3, simdLoopG, run3_eq]

theorem run4_eq (f : I.V → I.V → I.V → I.V → I.V) (N out : Nat) (a1 a2 a3 a4 : VA I) :
    run4 I f N out a1 a2 a3 a4 = runG I (consume4 I) (fun p => .ok (f p.1 p.2.1 p.2.2.1 p.2.2.2)) N out (a1, a2, a3, a4) := by
  simp only [run4, runG, mpIteration4_eq, consume4, bind_assoc, pure_bind, pair]

theorem simdLoop4_eq (f : I.V → I.V → I.V → I.V → I.V) (out : Nat) (a1 a2 a3 a4 : VA I) (n : BitVec 32) :
    simdLoop4 I f out a1 a2 a3 a4 n =
      simdLoopG I (consume4 I) (fun p => .ok (f p.1 p.2.1 p.2.2.1 p.2.2.2)) out (a1, a2, a3, a4) n := by
  simp only [simdLoop4, simdLoopG, run4_eq]

end Nova
