import Verif.Spec
import Verif.Model.Unroll

/-!
# Reasoning principles for the loops (helper lemmas, no properties)
-/

namespace Nova
open Spec
variable {α σ β : Type}

/-! ## Iteration -/

theorem iterM_seq_aux {body : σ → Exec α σ} {S : Nat → σ} {M : Nat → Mem α} {K : Nat}
    (h : ∀ k, k < K → body (S k) (M k) = .ok (S (k + 1), M (k + 1))) :
    ∀ k j, j + k ≤ K → iterM body k (S j) (M j) = .ok (S (j + k), M (j + k))
  | 0, j, _ => by simp [iterM]
  | k + 1, j, hk => by
      rw [iterM, Exec.bind_ok (h j (by omega)), iterM_seq_aux h k (j + 1) (by omega)]
      rw [Nat.add_right_comm j 1 k, Nat.add_assoc]

theorem iterM_seq {body : σ → Exec α σ} (S : Nat → σ) (M : Nat → Mem α) (K : Nat)
    (h : ∀ k, k < K → body (S k) (M k) = .ok (S (k + 1), M (k + 1))) :
    iterM body K (S 0) (M 0) = .ok (S K, M K) := by
  have := iterM_seq_aux h K 0 (by omega)
  simpa using this

/-- If the iterations before `k` succeed and iteration `k` faults, the loop faults. -/
theorem iterM_fault_aux {body : σ → Exec α σ} {S : Nat → σ} {M : Nat → Mem α} {e : Fault} {k : Nat}
    (h : ∀ i, i < k → body (S i) (M i) = .ok (S (i + 1), M (i + 1)))
    (he : body (S k) (M k) = .error e) :
    ∀ d j K, j + d = k → k < j + K → iterM body K (S j) (M j) = .error e
  | 0, j, 0, _, _ => by omega
  | 0, j, K + 1, hj, _ => by
      have : j = k := by omega
      subst this
      rw [iterM, Exec.bind_error he]
  | d + 1, j, 0, _, _ => by omega
  | d + 1, j, K + 1, hj, hK => by
      rw [iterM, Exec.bind_ok (h j (by omega))]
      exact iterM_fault_aux h he d (j + 1) K (by omega) (by omega)

theorem iterM_fault {body : σ → Exec α σ} (S : Nat → σ) (M : Nat → Mem α) {e : Fault} {k K : Nat}
    (hk : k < K)
    (h : ∀ i, i < k → body (S i) (M i) = .ok (S (i + 1), M (i + 1)))
    (he : body (S k) (M k) = .error e) :
    iterM body K (S 0) (M 0) = .error e :=
  iterM_fault_aux h he k 0 K (by omega) (by omega)

theorem tripCount_pos (n : BitVec 32) : 0 < tripCount n := by
  unfold tripCount
  split
  · decide
  · rename_i h
    have : n.toNat ≠ 0 := fun h0 => h (BitVec.eq_of_toNat_eq (by simpa using h0))
    omega

theorem toNat_pred {n : BitVec 32} (h : n ≠ 0) : (n - 1).toNat = n.toNat - 1 := by
  have hn : n.toNat ≠ 0 := fun h0 => h (BitVec.eq_of_toNat_eq (by simpa using h0))
  have hlt := n.isLt
  have h1 : (1 : BitVec 32).toNat = 1 := rfl
  rw [BitVec.toNat_sub, h1]
  omega

/-- A `do … while (--n)` loop executes its body `n` times, or `2^32` times when `n = 0`. -/
theorem doWhile_eq_iterM (body : σ → Exec α σ) (n : BitVec 32) (s : σ) :
    doWhile body n s = iterM body (tripCount n) s := by
  fun_induction doWhile body n s with
  | case1 n s ih =>
    funext m
    cases hb : body s m with
    | error e =>
      have hp := tripCount_pos n
      obtain ⟨k, hk⟩ : ∃ k, tripCount n = k + 1 := ⟨tripCount n - 1, by omega⟩
      rw [hk, iterM, Exec.bind_error hb, Exec.bind_error hb]
    | ok r =>
      obtain ⟨s', m'⟩ := r
      have hp := tripCount_pos n
      obtain ⟨k, hk⟩ : ∃ k, tripCount n = k + 1 := ⟨tripCount n - 1, by omega⟩
      rw [hk, iterM, Exec.bind_ok hb, Exec.bind_ok hb]
      by_cases h1 : n - 1 = 0
      · have hn : n = 1 := by
          have hn0 : n ≠ 0 := by rintro rfl; revert h1; decide
          apply BitVec.eq_of_toNat_eq
          have e1 := toNat_pred hn0
          rw [h1] at e1
          have e2 : n.toNat ≠ 0 := fun h0 => hn0 (BitVec.eq_of_toNat_eq (by simpa using h0))
          have e3 : (1 : BitVec 32).toNat = 1 := rfl
          have e4 : (0 : BitVec 32).toNat = 0 := rfl
          omega
        subst hn
        have : k = 0 := by
          have : tripCount 1 = 1 := by decide
          omega
        subst this
        simp [iterM]
      · rw [if_neg h1, ih s' h1]
        have : tripCount (n - 1) = k := by
          unfold tripCount at hk ⊢
          rw [if_neg h1]
          by_cases h0 : n = 0
          · subst h0
            rw [if_pos rfl] at hk
            have : ((0 : BitVec 32) - 1).toNat = 2 ^ 32 - 1 := by decide
            omega
          · rw [if_neg h0] at hk
            rw [toNat_pred h0]; omega
        rw [this]

/-- Trip count of a SIMD loop: `n /= per_loop` first. -/
theorem tripCount_div {n : BitVec 32} {p : Nat} (hp : 0 < p) (hp2 : p < 2 ^ 32) (hn : p ≤ n.toNat) :
    tripCount (n / BitVec.ofNat 32 p) = n.toNat / p := by
  have hdiv : (n / BitVec.ofNat 32 p).toNat = n.toNat / p := by
    rw [BitVec.toNat_udiv, BitVec.toNat_ofNat, Nat.mod_eq_of_lt hp2]
  have hpos : 0 < n.toNat / p := Nat.div_pos hn hp
  unfold tripCount
  rw [if_neg, hdiv]
  intro h
  rw [h] at hdiv
  simp at hdiv
  omega

theorem tripCount_div_lt {n : BitVec 32} {p : Nat} (hp2 : p < 2 ^ 32) (hn : n.toNat < p) :
    tripCount (n / BitVec.ofNat 32 p) = 2 ^ 32 := by
  have hdiv : n / BitVec.ofNat 32 p = 0 := by
    apply BitVec.eq_of_toNat_eq
    rw [BitVec.toNat_udiv, BitVec.toNat_ofNat, Nat.mod_eq_of_lt hp2]
    simpa using Nat.div_eq_of_lt hn
  rw [hdiv]; rfl

theorem tripCount_of_pos {n : BitVec 32} (h : 0 < n.toNat) : tripCount n = n.toNat := by
  unfold tripCount
  rw [if_neg]
  rintro rfl
  simp at h

/-! ## Memory -/

theorem overwrite_zero (m : Mem α) (out : Nat) (y : Nat → α) : overwrite m out 0 y = m := by
  funext a
  unfold overwrite
  rw [if_neg (by omega)]

theorem overwrite_congr {m : Mem α} {out n : Nat} {y y' : Nat → α} (h : ∀ i, i < n → y i = y' i) :
    overwrite m out n y = overwrite m out n y' := by
  funext a
  unfold overwrite
  split
  · rw [h _ (by omega)]
  · rfl

theorem overwrite_alloc {m : Mem α} {out n p : Nat} {y : Nat → α} (h : (m p).isSome) :
    (overwrite m out n y p).isSome := by
  unfold overwrite; split <;> simp [h]

theorem overwrite_outside {m : Mem α} {out n p : Nat} {y : Nat → α} (h : p < out ∨ out + n ≤ p) :
    overwrite m out n y p = m p := by
  unfold overwrite; rw [if_neg (by omega)]

theorem overwrite_inside {m : Mem α} {out n i : Nat} {y : Nat → α} (h : i < n) :
    overwrite m out n y (out + i) = some (y i) := by
  unfold overwrite
  rw [if_pos (by omega)]
  congr 2; omega

theorem read_ok {m : Mem α} {p : Nat} {v : α} (h : m p = some v) : read p m = .ok (v, m) := by
  simp [read, h]

theorem read_fault {m : Mem α} {p : Nat} (h : m p = none) : read p m = .error (.oob p) := by
  simp [read, h]

theorem write_fault {m : Mem α} {p : Nat} {v : α} (h : m p = none) :
    write p v m = .error (.oob p) := by
  simp [write, h]

theorem write_ok {m : Mem α} {p : Nat} {v : α} (h : (m p).isSome) :
    write p v m = .ok ((), fun a => if a = p then some v else m a) := by
  unfold write
  cases hm : m p with
  | none => simp [hm] at h
  | some w => rfl

/-- Storing the next element of the output. -/
theorem write_overwrite {m : Mem α} {out k : Nat} {y : Nat → α} {v : α} (h : (m (out + k)).isSome)
    (hv : v = y k) :
    write (out + k) v (overwrite m out k y) = .ok ((), overwrite m out (k + 1) y) := by
  rw [write_ok (overwrite_alloc h)]
  congr 2
  funext a
  unfold overwrite
  by_cases ha : a = out + k
  · subst ha
    rw [if_pos rfl, if_pos (by omega), hv]
    congr 2; omega
  · rw [if_neg ha]
    by_cases h2 : out ≤ a ∧ a < out + k
    · rw [if_pos h2, if_pos (by omega)]
    · rw [if_neg h2, if_neg (by omega)]

theorem readVec_ok {m : Mem α} {w p : Nat} {x : Vec α w} (h : ∀ i : Fin w, m (p + i) = some (x i)) :
    readVec w p m = .ok (x, m) := by
  unfold readVec
  have hal : m.allocated p w := fun i => by rw [h i]; rfl
  rw [dif_pos hal]
  congr 2
  funext i
  simp only [h i, Option.get_some]

theorem readVec_fault {m : Mem α} {w p : Nat} {i : Nat} (hi : i < w) (h : m (p + i) = none) :
    readVec w p m = .error (.oob p) := by
  unfold readVec
  rw [dif_neg]
  intro hal
  have := hal ⟨i, hi⟩
  simp [h] at this

theorem writeVec_fault {m : Mem α} {w p : Nat} {v : Vec α w} {i : Nat} (hi : i < w)
    (h : m (p + i) = none) : writeVec v p m = .error (.oob p) := by
  unfold writeVec
  rw [if_neg]
  intro hal
  have := hal ⟨i, hi⟩
  simp [h] at this

theorem writeVec_ok {m : Mem α} {w p : Nat} {v : Vec α w} (h : Allocated m p w) :
    writeVec v p m = .ok ((), fun a => if h : p ≤ a ∧ a < p + w then some (v ⟨a - p, by omega⟩) else m a) := by
  unfold writeVec
  have hal : m.allocated p w := fun i => h i i.isLt
  rw [if_pos hal]

/-- Storing the next register of the output. -/
theorem writeVec_overwrite {m : Mem α} {w out k : Nat} {y : Nat → α} {v : Vec α w}
    (h : Allocated m (out + k) w) (hv : ∀ i : Fin w, v i = y (k + i)) :
    writeVec v (out + k) (overwrite m out k y) = .ok ((), overwrite m out (k + w) y) := by
  rw [writeVec_ok (fun i hi => overwrite_alloc (h i hi))]
  congr 2
  funext a
  unfold overwrite
  by_cases ha : out + k ≤ a ∧ a < out + k + w
  · rw [dif_pos ha, if_pos (by omega), hv]
    congr 2; simp only; omega
  · rw [dif_neg ha]
    by_cases h2 : out ≤ a ∧ a < out + k
    · rw [if_pos h2, if_pos (by omega)]
    · rw [if_neg h2, if_neg (by omega)]

/-! ## The unroller, with all arguments bundled -/

section generic
variable (I : VecImpl α)

/-- `mp_iteration` with the arguments bundled in one state. -/
def mpIterG (consume : σ → Exec α (β × σ)) (f : β → Except Fault I.V) (N out : Nat)
    (l : Option β) (s : σ) : Exec α σ :=
  if N = 0 then pure s
  else if _hN : N < I.size then Exec.fail .illFormed
  else do
    let (next, s) ← (if N ≠ I.size then do
        let (v, s) ← consume s
        pure (some v, s)
      else pure (none, s))
    let x ← initialised l
    let r ← Exec.lift (f x)
    I.storeAligned r out
    mpIterG consume f (N - I.size) (out + I.size) next s
termination_by N
decreasing_by have := I.size_pos; omega

def runG (consume : σ → Exec α (β × σ)) (f : β → Except Fault I.V) (N out : Nat) (s : σ) :
    Exec α σ :=
  if N = 0 then Exec.fail .illFormed else do
    let (v, s) ← consume s
    mpIterG I consume f N out (some v) s

def simdLoopG (consume : σ → Exec α (β × σ)) (f : β → Except Fault I.V) (out : Nat) (s : σ)
    (n : BitVec 32) : Exec α Unit := do
  let n := n / BitVec.ofNat 32 I.perLine
  let _ ← doWhile (fun (t : Nat × σ) => do
      let (out, s) := t
      let s ← runG I consume f I.perLine out s
      pure (out + I.perLine, s)) n (out, s)
  pure ()

variable {I}
variable {consume : σ → Exec α (β × σ)} {f : β → Except Fault I.V}
  {out J : Nat} {s : Nat → σ} {v : Nat → β} {r : Nat → I.V} {W : Nat → Mem α}

theorem mpIterG_seq
    (hc : ∀ i j, i ≤ j → j < J → consume (s j) (W i) = .ok ((v j, s (j + 1)), W i))
    (hf : ∀ j, j < J → f (v j) = .ok (r j))
    (hs : ∀ j, j < J → I.storeAligned (r j) (out + j * I.size) (W j) = .ok ((), W (j + 1))) :
    ∀ k j, j + (k + 1) ≤ J →
      mpIterG I consume f ((k + 1) * I.size) (out + j * I.size) (some (v j)) (s (j + 1)) (W j)
        = .ok (s (j + (k + 1)), W (j + (k + 1)))
  | 0, j, hj => by
      have hp := I.size_pos
      rw [mpIterG, if_neg (by omega), dif_neg (by omega), if_neg (by omega)]
      simp only [pure_bind, initialised]
      rw [hf j (by omega), Exec.bind_ok (Exec.lift_ok _ _), Exec.bind_ok (hs j (by omega)), mpIterG,
        if_pos (by omega)]
      rfl
  | k + 1, j, hj => by
      have hp := I.size_pos
      have e1 : (k + 1 + 1) * I.size = (k + 1) * I.size + I.size := Nat.succ_mul _ _
      have e2 : 0 < (k + 1) * I.size := Nat.mul_pos (by omega) hp
      rw [mpIterG, if_neg (by omega), dif_neg (by omega), if_pos (by omega)]
      simp only [bind_assoc, pure_bind, initialised]
      rw [Exec.bind_ok (hc j (j + 1) (by omega) (by omega))]
      simp only
      rw [hf j (by omega), Exec.bind_ok (Exec.lift_ok _ _), Exec.bind_ok (hs j (by omega))]
      have e3 : (k + 1 + 1) * I.size - I.size = (k + 1) * I.size := by omega
      have e4 : out + j * I.size + I.size = out + (j + 1) * I.size := by
        rw [Nat.succ_mul]; omega
      rw [e3, e4, mpIterG_seq hc hf hs k (j + 1) (by omega)]
      have : j + 1 + (k + 1) = j + (k + 1 + 1) := by omega
      rw [this]

theorem runG_seq
    (hc : ∀ i j, i ≤ j → j < J → consume (s j) (W i) = .ok ((v j, s (j + 1)), W i))
    (hf : ∀ j, j < J → f (v j) = .ok (r j))
    (hs : ∀ j, j < J → I.storeAligned (r j) (out + j * I.size) (W j) = .ok ((), W (j + 1)))
    {k j : Nat} (hk : 0 < k) (hj : j + k ≤ J) :
    runG I consume f (k * I.size) (out + j * I.size) (s j) (W j) = .ok (s (j + k), W (j + k)) := by
  obtain ⟨k, rfl⟩ : ∃ k', k = k' + 1 := ⟨k - 1, by omega⟩
  have hp : 0 < (k + 1) * I.size := Nat.mul_pos (by omega) I.size_pos
  rw [runG, if_neg (by omega), Exec.bind_ok (hc j j (Nat.le_refl _) (by omega))]
  exact mpIterG_seq hc hf hs k j hj

theorem simdLoopG_seq {k : Nat} {n : BitVec 32}
    (hpl : I.perLine = k * I.size) (hk : 0 < k) (hpl2 : I.perLine < 2 ^ 32)
    (hn : I.perLine ≤ n.toNat) (hJ : J = n.toNat / I.perLine * k)
    (hc : ∀ i j, i ≤ j → j < J → consume (s j) (W i) = .ok ((v j, s (j + 1)), W i))
    (hf : ∀ j, j < J → f (v j) = .ok (r j))
    (hs : ∀ j, j < J → I.storeAligned (r j) (out + j * I.size) (W j) = .ok ((), W (j + 1))) :
    simdLoopG I consume f out (s 0) n (W 0) = .ok ((), W J) := by
  have hpos : 0 < I.perLine := by rw [hpl]; exact Nat.mul_pos hk I.size_pos
  unfold simdLoopG
  simp only
  rw [doWhile_eq_iterM, tripCount_div hpos hpl2 hn]
  have key := iterM_seq (body := (fun (t : Nat × σ) => do
      let (out, s) := t
      let s ← runG I consume f I.perLine out s
      pure (out + I.perLine, s)))
    (fun q => (out + q * I.perLine, s (q * k))) (fun q => W (q * k)) (n.toNat / I.perLine) (by
      intro q hq
      simp only
      have e1 : q * I.perLine = q * k * I.size := by rw [hpl, Nat.mul_assoc]
      have hqk : q * k + k ≤ J := by
        rw [hJ, ← Nat.succ_mul]; exact Nat.mul_le_mul_right _ hq
      have := runG_seq hc hf hs (k := k) (j := q * k) hk hqk
      rw [hpl, ← Nat.mul_assoc, Exec.bind_ok this]
      simp only [Exec.pure_run, Nat.succ_mul]
      rw [Nat.add_assoc, ← Nat.mul_assoc])
  have key' := key
  simp only [Nat.zero_mul, Nat.add_zero] at key'
  rw [Exec.bind_ok key', hJ]
  rfl

end generic

end Nova
