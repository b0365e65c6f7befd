import Verif.Lemmas.NumberLanes
import Verif.Props.C79_Sums
import Verif.Props.C98_Numbers
import Verif.Props.C21_Pan

/-!
# C98: sums, meters and panning of finite numbers

Sums of numbers of one sign, sums of squares and panned signals are numbers.  A SIMD sum of numbers of both signs can be a
NaN although the scalar sum is 0 (`C98_negation_sum`).
-/

namespace Nova
open FP VecMath Spec

section generic
variable {w : Nat} {F : Fmt w}

/-- Zero or a positive number, possibly infinite. -/
def Plus (F : Fmt w) (x : BitVec w) : Prop := Num F x ∧ 0 ≤ F.toEReal x

/-- Zero or a negative number, possibly infinite. -/
def Minus (F : Fmt w) (x : BitVec w) : Prop := Num F x ∧ F.toEReal x ≤ 0

theorem add_inf {x y : BitVec w} (hx : Num F x) (hy : Num F y) (ix : F.isInf x = true) (iy : F.isInf y = true)
    (h : F.neg x = F.neg y) : F.add x y = x := by
  unfold Num at hx hy
  unfold Fmt.add
  rw [hx, hy, Bool.or_self, if_neg (by decide), if_pos ix, iy, h]
  simp

theorem plus_add {x y : BitVec w} (hx : Plus F x) (hy : Plus F y) : Plus F (F.add x y) := by
  have hn : Num F (F.add x y) := by
    rcases fin_or_inf hx.1 with f | ix
    · exact num_add hx.1 hy.1 (.inl f)
    rcases fin_or_inf hy.1 with f | iy
    · exact num_add hx.1 hy.1 (.inr f)
    have top : ∀ {z : BitVec w}, Plus F z → F.isInf z = true → F.neg z = false := fun {z} hz iz => by
      rcases Fmt.num_cases hz.1 with ⟨-, -, e⟩ | ⟨-, e, -⟩ | ⟨f, -⟩
      · exact absurd hz.2 (by rw [e]; simp)
      · exact e
      · rw [F.isFinite_not_inf f] at iz; exact absurd iz (by decide)
    rw [add_inf hx.1 hy.1 ix iy ((top hx ix).trans (top hy iy).symm)]
    exact hx.1
  refine ⟨hn, ?_⟩
  have := (Fmt.IsRndE.self F.isNaN_posZero).mono (Fmt.add_rndE hn) (by
    rw [F.toEReal_posZero]; exact add_nonneg hx.2 hy.2)
  rwa [F.toEReal_posZero] at this

theorem minus_add {x y : BitVec w} (hx : Minus F x) (hy : Minus F y) : Minus F (F.add x y) := by
  have hn : Num F (F.add x y) := by
    rcases fin_or_inf hx.1 with f | ix
    · exact num_add hx.1 hy.1 (.inl f)
    rcases fin_or_inf hy.1 with f | iy
    · exact num_add hx.1 hy.1 (.inr f)
    have bot : ∀ {z : BitVec w}, Minus F z → F.isInf z = true → F.neg z = true := fun {z} hz iz => by
      rcases Fmt.num_cases hz.1 with ⟨-, e, -⟩ | ⟨-, -, e⟩ | ⟨f, -⟩
      · exact e
      · exact absurd hz.2 (by rw [e]; simp)
      · rw [F.isFinite_not_inf f] at iz; exact absurd iz (by decide)
    rw [add_inf hx.1 hy.1 ix iy ((bot hx ix).trans (bot hy iy).symm)]
    exact hx.1
  refine ⟨hn, ?_⟩
  have := (Fmt.add_rndE hn).mono (Fmt.IsRndE.self F.isNaN_posZero) (by
    rw [F.toEReal_posZero]; exact add_nonpos hx.2 hy.2)
  rwa [F.toEReal_posZero] at this

theorem plus_zero : Plus F F.posZero := ⟨F.isNaN_posZero, by rw [F.toEReal_posZero]⟩
theorem minus_zero : Minus F F.posZero := ⟨F.isNaN_posZero, by rw [F.toEReal_posZero]⟩

/-- A predicate that additions keep. -/
structure Closed (F : Fmt w) (p : BitVec w → Prop) : Prop where
  zero : p F.posZero
  add : ∀ {x y}, p x → p y → p (F.add x y)

theorem closed_plus : Closed F (Plus F) := ⟨plus_zero, plus_add⟩
theorem closed_minus : Closed F (Minus F) := ⟨minus_zero, minus_add⟩

variable {p : BitVec w → Prop}

theorem Closed.fold (hp : Closed F p) {g : BitVec w → BitVec w → BitVec w} (hg : ∀ a b, g a b = F.add a b) {z : BitVec w}
    {x : Nat → BitVec w} (h0 : p z) {n : Nat} (hx : ∀ i, i < n → p (x i)) : p (foldSeq g z x n) := by
  induction n with
  | zero => exact h0
  | succ n ih =>
    rw [foldSeq, hg]
    exact hp.add (ih fun i hi => hx i (by omega)) (hx n (by omega))

theorem Closed.hsum (hp : Closed F p) {t : Target} {E : Env (BitVec w)} (hE : Adds F E) {v : (t.vec E).V}
    (hv : ∀ l, p (v l)) : p ((t.vec E).horizontalSum v) := by
  have base : ∀ {s : Nat} (v : Vec (BitVec w) s), (∀ l, p (v l)) → p (Base.horizontalSum E.S v) := by
    intro s v hv
    have e : Base.horizontalSum E.S v =
        foldSeq E.S.add E.S.zero (fun i => if h : i < s then v ⟨i, h⟩ else 0) s := by
      rw [foldSeq_eq_foldl]
      unfold Base.horizontalSum Base.toList
      congr 2
      funext l
      rw [dif_pos l.isLt]
    rw [e]
    refine hp.fold hE.S ?_ fun i hi => ?_
    · rw [hE.zS]; exact hp.zero
    · simp only [dif_pos hi]; exact hv _
  have four : ∀ (v : Vec (BitVec w) 4), (∀ l, p (v l)) → ∀ i j k q : Fin 4,
      p (F.add (F.add (v i) (v j)) (F.add (v k) (v q))) :=
    fun v h i j k q => hp.add (hp.add (h i) (h j)) (hp.add (h k) (h q))
  cases t with
  | genericFloat => exact base v hv
  | genericDouble => exact base v hv
  | avxFloat => exact base v hv
  | avxDouble => exact base v hv
  | altivec => exact base v hv
  | sse s3 s41 =>
    change Fin 4 → BitVec w at v
    cases s3
    · show p (E.L.add (E.L.add (v 2) (v 0)) (E.L.add (v 3) (v 1)))
      simp only [hE.L]
      exact four v hv 2 0 3 1
    · show p (E.L.add (E.L.add (v 0) (v 1)) (E.L.add (v 2) (v 3)))
      simp only [hE.L]
      exact four v hv 0 1 2 3
  | neon =>
    change Fin 4 → BitVec w at v
    show p (E.S.add (E.L.add (v 0) (v 1)) (E.L.add (v 2) (v 3)))
    simp only [hE.L, hE.S]
    exact four v hv 0 1 2 3
  | sse2 =>
    change Fin 2 → BitVec w at v
    replace hv : ∀ l : Fin 2, p (v l) := hv
    show p (E.L.add (v 0) (v 1))
    simp only [hE.L]
    exact hp.add (hv 0) (hv 1)

theorem Closed.sum (hp : Closed F p) {E : Env (BitVec w)} (hE : Adds F E) {m : Mem (BitVec w)} {inp : Nat} {n : BitVec 32}
    {x : Nat → BitVec w} (hn : 0 < n.toNat) (hi : Holds m inp n.toNat x) (hx : ∀ i, i < n.toNat → p (x i)) :
    ∃ r, horizontalSumVec E inp n m = .ok (r, m) ∧ p r :=
  ⟨_, foldVec_ok hn hi, hp.fold hE.S (by rw [hE.zS]; exact hp.zero) hx⟩

/-- What the SIMD sum returns. -/
theorem hsum_call {E : Env (BitVec w)} (t : Target) {m : Mem (BitVec w)} {inp : Nat}
    {n : BitVec 32} {x : Nat → BitVec w} (h : SimdInput t m inp n x) :
    horizontalSumVecSimd E (t.vec E) inp n m = .ok ((t.vec E).horizontalSum fun l => foldSeq (t.vec E).lane.add
      ((t.vec E).setVec E.S.zero l) (fun j => x (j * (t.vec E).size + l)) (n.toNat / (t.vec E).size), m) := by
  unfold horizontalSumVecSimd
  rw [Exec.bind_ok (h.fold E _ _)]
  have e : (foldSeq (VecImpl.zip (t.vec E).lane.add) ((t.vec E).setVec E.S.zero)
      (fun j l => x (j * (t.vec E).size + l)) (n.toNat / (t.vec E).size)) = fun l => foldSeq (t.vec E).lane.add
      ((t.vec E).setVec E.S.zero l) (fun j => x (j * (t.vec E).size + l)) (n.toNat / (t.vec E).size) :=
    funext fun l => foldSeq_lane (t.vec E).lane.add ((t.vec E).setVec E.S.zero)
      (fun j (l : Fin (t.vec E).size) => x (j * (t.vec E).size + l)) (n.toNat / (t.vec E).size) l
  rw [e]
  rfl

theorem Closed.sum_simd (hp : Closed F p) {E : Env (BitVec w)} (hE : Adds F E) (t : Target) {m : Mem (BitVec w)} {inp : Nat}
    {n : BitVec 32} {x : Nat → BitVec w} (h : SimdInput t m inp n x) (hx : ∀ i, i < n.toNat → p (x i)) :
    ∃ r, horizontalSumVecSimd E (t.vec E) inp n m = .ok (r, m) ∧ p r := by
  have hdm := h.div_mul E
  refine ⟨_, hsum_call t h, hp.hsum hE fun l => ?_⟩
  refine hp.fold (by rw [t.lane_eq]; exact hE.L) ?_ fun j hj => hx _ ?_
  · rw [(t.lawful E).setVec, hE.zS]; exact hp.zero
  · have h1 : (j + 1) * (t.vec E).size ≤ n.toNat := by
      rw [← hdm]; exact Nat.mul_le_mul_right _ hj
    rw [Nat.succ_mul] at h1
    have := l.isLt
    omega

theorem square_plus {A : Arith (BitVec w)} {d : Bool} (H : NumberOps F A d) {x : BitVec w} (hx : IsFin F x) : Plus F (A.mul x x) := by
  have hn := H.mul hx hx
  refine ⟨hn, ?_⟩
  have := (Fmt.IsRndE.self F.isNaN_posZero).mono (H.order.mul x x hn) (by
    rw [F.toEReal_posZero, F.toEReal_of_finite hx, ← EReal.coe_mul]
    exact_mod_cast mul_self_nonneg _)
  rwa [F.toEReal_posZero] at this

theorem Closed.sqr (hp : Closed F p) {E : Env (BitVec w)} (hE : Adds F E) (t : Target) {x : Nat → BitVec w} {f : (t.vec E).V}
    (hf : ∀ l, p (f l)) (K : Nat) (hx : ∀ i, i < K * (4 * (t.vec E).size) → p (E.L.square (x i))) :
    p ((t.vec E).horizontalSum (sqrReg (t.vec E) f x K)) := by
  refine hp.hsum hE ?_
  induction K with
  | zero => exact hf
  | succ K ih =>
    intro l
    have hl := l.isLt
    have hk : ∀ q, q < 4 → K * (4 * (t.vec E).size) + q * (t.vec E).size + l < (K + 1) * (4 * (t.vec E).size) := fun q hq => by
      have : (q + 1) * (t.vec E).size ≤ 4 * (t.vec E).size := Nat.mul_le_mul_right _ hq
      rw [Nat.succ_mul] at this
      rw [Nat.succ_mul K]
      omega
    have ih' := ih (fun i hi => hx i (lt_of_lt_of_le hi (Nat.mul_le_mul_right _ (Nat.le_succ K)))) l
    show p ((t.vec E).lane.add _ ((t.vec E).lane.add ((t.vec E).lane.add ((t.vec E).lane.add _ _) _) _))
    simp only [t.lane_eq E, hE.L]
    exact hp.add ih' (hp.add (hp.add (hp.add (hx _ (hk 0 (by omega))) (hx _ (hk 1 (by omega)))) (hx _ (hk 2 (by omega))))
      (hx _ (hk 3 (by omega))))

end generic

/-! ## Sums -/

/-- Sums of finite `float`s of one sign: a number of that sign, infinite if the sum is too large. -/
theorem C98_sum_float_partial (b : Build32) (P : Platform 32) {m : Mem (BitVec 32)} {inp : Nat} {n : BitVec 32} {x : Nat → BitVec 32}
    (hf : ∀ i < n.toNat, IsFin binary32 (x i))
    (hx : (∀ i < n.toNat, 0 ≤ binary32.toReal (x i)) ∨ ∀ i < n.toNat, binary32.toReal (x i) ≤ 0) :
    (0 < n.toNat → Holds m inp n.toNat x → ∃ r, horizontalSumVec (b.env P) inp n m = .ok (r, m) ∧ Num binary32 r) ∧
    (SimdInput b.target m inp n x →
      ∃ r, horizontalSumVecSimd (b.env P) (b.vec P) inp n m = .ok (r, m) ∧ Num binary32 r) := by
  rcases hx with hx | hx
  · have h : ∀ i, i < n.toNat → Plus binary32 (x i) := fun i hi => ⟨num_of_fin (hf i hi), ereal_nonneg (hf i hi) (hx i hi)⟩
    exact ⟨fun hn hi => (closed_plus.sum (b.adds P) hn hi h).imp fun _ h => ⟨h.1, h.2.1⟩,
      fun hi => (closed_plus.sum_simd (b.adds P) b.target hi h).imp fun _ h => ⟨h.1, h.2.1⟩⟩
  · have h : ∀ i, i < n.toNat → Minus binary32 (x i) := fun i hi => ⟨num_of_fin (hf i hi), by
      rw [binary32.toEReal_of_finite (hf i hi)]; exact_mod_cast hx i hi⟩
    exact ⟨fun hn hi => (closed_minus.sum (b.adds P) hn hi h).imp fun _ h => ⟨h.1, h.2.1⟩,
      fun hi => (closed_minus.sum_simd (b.adds P) b.target hi h).imp fun _ h => ⟨h.1, h.2.1⟩⟩

/-- Sums of finite `double`s of one sign. -/
theorem C98_sum_double_partial (b : Build64) (P : Platform 64) {m : Mem (BitVec 64)} {inp : Nat} {n : BitVec 32} {x : Nat → BitVec 64}
    (hf : ∀ i < n.toNat, IsFin binary64 (x i))
    (hx : (∀ i < n.toNat, 0 ≤ binary64.toReal (x i)) ∨ ∀ i < n.toNat, binary64.toReal (x i) ≤ 0) :
    (0 < n.toNat → Holds m inp n.toNat x → ∃ r, horizontalSumVec (b.env P) inp n m = .ok (r, m) ∧ Num binary64 r) ∧
    (SimdInput b.target m inp n x →
      ∃ r, horizontalSumVecSimd (b.env P) (b.vec P) inp n m = .ok (r, m) ∧ Num binary64 r) := by
  rcases hx with hx | hx
  · have h : ∀ i, i < n.toNat → Plus binary64 (x i) := fun i hi => ⟨num_of_fin (hf i hi), ereal_nonneg (hf i hi) (hx i hi)⟩
    exact ⟨fun hn hi => (closed_plus.sum (b.adds P) hn hi h).imp fun _ h => ⟨h.1, h.2.1⟩,
      fun hi => (closed_plus.sum_simd (b.adds P) b.target hi h).imp fun _ h => ⟨h.1, h.2.1⟩⟩
  · have h : ∀ i, i < n.toNat → Minus binary64 (x i) := fun i hi => ⟨num_of_fin (hf i hi), by
      rw [binary64.toEReal_of_finite (hf i hi)]; exact_mod_cast hx i hi⟩
    exact ⟨fun hn hi => (closed_minus.sum (b.adds P) hn hi h).imp fun _ h => ⟨h.1, h.2.1⟩,
      fun hi => (closed_minus.sum_simd (b.adds P) b.target hi h).imp fun _ h => ⟨h.1, h.2.1⟩⟩

/-! ## Meters -/

/-- `peak_rms_vec` of finite `float`s: the sum of squares is a number. -/
theorem C98_rms_float (b : Build32) (P : Platform 32) {m : Mem (BitVec 32)} {inp peak sq : Nat} {n : BitVec 32}
    {x : ℕ → BitVec 32} {p0 s0 : BitVec 32} (hn : 0 < n.toNat) (hx : Holds m inp n.toNat x)
    (hp : m peak = some p0) (hs : m sq = some s0) (hs0 : IsFin binary32 s0 ∧ 0 ≤ binary32.toReal s0)
    (hf : ∀ i < n.toNat, IsFin binary32 (x i)) :
    ∃ p r, peakRmsVec (b.env P) inp peak sq n m =
        .ok ((), overwrite (overwrite m peak 1 fun _ => p) sq 1 fun _ => r) ∧ Num binary32 r :=
  ⟨_, _, peakRms_ok (b.env P) hn hx hp hs, (closed_plus.fold (F := binary32) (b.adds P).S
    ⟨num_of_fin hs0.1, ereal_nonneg hs0.1 hs0.2⟩ fun i hi => square_plus (lane_numberOps32 .generic P) (hf i hi)).1⟩

/-- `peak_rms_vec_simd` of finite `float`s, all builds but AVX (which starts from uninitialised lanes, C26). -/
theorem C98_rms_simd_float_partial (b : Build32) (hb : ∀ fma, b ≠ .avx fma) (P : Platform 32) {m : Mem (BitVec 32)}
    {inp peak sq : Nat} {n : BitVec 32} {x : ℕ → BitVec 32} {p0 s0 : BitVec 32} (hn : 0 < n.toNat)
    (hd : 4 * b.target.size ∣ n.toNat) (hal : b.target.align ∣ inp) (hx : Holds m inp n.toNat x)
    (hp : m peak = some p0) (hs : m sq = some s0) (hs0 : IsFin binary32 s0 ∧ 0 ≤ binary32.toReal s0)
    (hf : ∀ i < n.toNat, IsFin binary32 (x i)) :
    ∃ p r, peakRmsVecSimd (b.vec P) inp peak sq n m =
        .ok ((), overwrite (overwrite m peak 1 fun _ => p) sq 1 fun _ => r) ∧ Num binary32 r := by
  have ht : b.target ≠ .avxFloat ∧ b.target ≠ .avxDouble := by
    cases b <;> first | exact absurd rfl (hb _) | exact ⟨by simp [Build32.target], by simp [Build32.target]⟩
  have hn' : 4 * (b.target.vec (b.env P)).size ≤ n.toNat := by
    rw [b.target.vec_size]; exact Nat.le_of_dvd hn hd
  have h := peakRmsSimd_ok (b.target.lawful (b.env P)) hal (b.target.four_size_small (b.env P)) hn' hx
    (C32_load_first_partial b.target (b.env P) ht hp) (C32_load_first_partial b.target (b.env P) ht hs)
    (by rw [hp]; rfl) (by rw [hs]; rfl)
  refine ⟨_, _, h, (closed_plus.sqr (b.adds P) b.target (fun l => ?_) _ fun i hi => ?_).1⟩
  · split
    · exact ⟨num_of_fin hs0.1, ereal_nonneg hs0.1 hs0.2⟩
    · rw [(b.adds P).zL]; exact plus_zero
  · have H := lane_numberOps32 b P
    change Plus binary32 ((b.lane P).square (x i))
    rw [H.order.square]
    exact square_plus H (hf i (lt_of_lt_of_le hi (Nat.div_mul_le_self _ _)))

/-- `peak_rms_vec` of finite `double`s. -/
theorem C98_rms_double (b : Build64) (P : Platform 64) {m : Mem (BitVec 64)} {inp peak sq : Nat} {n : BitVec 32}
    {x : ℕ → BitVec 64} {p0 s0 : BitVec 64} (hn : 0 < n.toNat) (hx : Holds m inp n.toNat x)
    (hp : m peak = some p0) (hs : m sq = some s0) (hs0 : IsFin binary64 s0 ∧ 0 ≤ binary64.toReal s0)
    (hf : ∀ i < n.toNat, IsFin binary64 (x i)) :
    ∃ p r, peakRmsVec (b.env P) inp peak sq n m =
        .ok ((), overwrite (overwrite m peak 1 fun _ => p) sq 1 fun _ => r) ∧ Num binary64 r :=
  ⟨_, _, peakRms_ok (b.env P) hn hx hp hs, (closed_plus.fold (F := binary64) (b.adds P).S
    ⟨num_of_fin hs0.1, ereal_nonneg hs0.1 hs0.2⟩ fun i hi => square_plus (lane_numberOps64 .generic P) (hf i hi)).1⟩

/-- `peak_rms_vec_simd` of finite `double`s, all builds but AVX. -/
theorem C98_rms_simd_double_partial (b : Build64) (hb : ∀ fma, b ≠ .avx fma) (P : Platform 64) {m : Mem (BitVec 64)}
    {inp peak sq : Nat} {n : BitVec 32} {x : ℕ → BitVec 64} {p0 s0 : BitVec 64} (hn : 0 < n.toNat)
    (hd : 4 * b.target.size ∣ n.toNat) (hal : b.target.align ∣ inp) (hx : Holds m inp n.toNat x)
    (hp : m peak = some p0) (hs : m sq = some s0) (hs0 : IsFin binary64 s0 ∧ 0 ≤ binary64.toReal s0)
    (hf : ∀ i < n.toNat, IsFin binary64 (x i)) :
    ∃ p r, peakRmsVecSimd (b.vec P) inp peak sq n m =
        .ok ((), overwrite (overwrite m peak 1 fun _ => p) sq 1 fun _ => r) ∧ Num binary64 r := by
  have ht : b.target ≠ .avxFloat ∧ b.target ≠ .avxDouble := by
    cases b <;> first | exact absurd rfl (hb _) | exact ⟨by simp [Build64.target], by simp [Build64.target]⟩
  have hn' : 4 * (b.target.vec (b.env P)).size ≤ n.toNat := by
    rw [b.target.vec_size]; exact Nat.le_of_dvd hn hd
  have h := peakRmsSimd_ok (b.target.lawful (b.env P)) hal (b.target.four_size_small (b.env P)) hn' hx
    (C32_load_first_partial b.target (b.env P) ht hp) (C32_load_first_partial b.target (b.env P) ht hs)
    (by rw [hp]; rfl) (by rw [hs]; rfl)
  refine ⟨_, _, h, (closed_plus.sqr (b.adds P) b.target (fun l => ?_) _ fun i hi => ?_).1⟩
  · split
    · exact ⟨num_of_fin hs0.1, ereal_nonneg hs0.1 hs0.2⟩
    · rw [(b.adds P).zL]; exact plus_zero
  · have H := lane_numberOps64 b P
    change Plus binary64 ((b.lane P).square (x i))
    rw [H.order.square]
    exact square_plus H (hf i (lt_of_lt_of_le hi (Nat.div_mul_le_self _ _)))

/-! ## Panning -/

/-- `pan2_vec_simd` of finite `float`s with finite gains. -/
theorem C98_pan2_float (b : Build32) (P : Platform 32) {m : Mem (BitVec 32)} {out0 out1 inp : Nat} {f0 f1 : BitVec 32}
    {n : BitVec 32} {x : Nat → BitVec 32} (hn : 0 < n.toNat) (hmul : b.target.perLine ∣ n.toNat)
    (a0 : b.target.align ∣ out0) (a1 : b.target.align ∣ out1) (ai : b.target.align ∣ inp)
    (hdis : Disjoint2 out0 out1 n.toNat) (hin : Holds m inp n.toNat x)
    (h0 : Allocated m out0 n.toNat) (h1 : Allocated m out1 n.toNat)
    (s0 : SafePlacement out0 inp n.toNat) (s1 : SafePlacement out1 inp n.toNat) (hg : IsFin binary32 f0 ∧ IsFin binary32 f1)
    (hx : ∀ i < n.toNat, IsFin binary32 (x i)) :
    ∃ r s : Nat → BitVec 32,
      pan2VecSimd (b.vec P) out0 out1 inp f0 f1 n m = .ok ((), overwrite (overwrite m out0 n.toNat r) out1 n.toNat s) ∧
      ∀ i < n.toNat, Num binary32 (r i) ∧ Num binary32 (s i) :=
  ⟨_, _, C21_pan2_simd b.target (b.env P) hn hmul a0 a1 ai hdis hin h0 h1 s0 s1, fun i hi =>
    ⟨(lane_numberOps32 b P).mul (hx i hi) hg.1, (lane_numberOps32 b P).mul (hx i hi) hg.2⟩⟩

/-- `pan2_vec_simd` of finite `double`s with finite gains. -/
theorem C98_pan2_double (b : Build64) (P : Platform 64) {m : Mem (BitVec 64)} {out0 out1 inp : Nat} {f0 f1 : BitVec 64}
    {n : BitVec 32} {x : Nat → BitVec 64} (hn : 0 < n.toNat) (hmul : b.target.perLine ∣ n.toNat)
    (a0 : b.target.align ∣ out0) (a1 : b.target.align ∣ out1) (ai : b.target.align ∣ inp)
    (hdis : Disjoint2 out0 out1 n.toNat) (hin : Holds m inp n.toNat x)
    (h0 : Allocated m out0 n.toNat) (h1 : Allocated m out1 n.toNat)
    (s0 : SafePlacement out0 inp n.toNat) (s1 : SafePlacement out1 inp n.toNat) (hg : IsFin binary64 f0 ∧ IsFin binary64 f1)
    (hx : ∀ i < n.toNat, IsFin binary64 (x i)) :
    ∃ r s : Nat → BitVec 64,
      pan2VecSimd (b.vec P) out0 out1 inp f0 f1 n m = .ok ((), overwrite (overwrite m out0 n.toNat r) out1 n.toNat s) ∧
      ∀ i < n.toNat, Num binary64 (r i) ∧ Num binary64 (s i) :=
  ⟨_, _, C21_pan2_simd b.target (b.env P) hn hmul a0 a1 ai hdis hin h0 h1 s0 s1, fun i hi =>
    ⟨(lane_numberOps64 b P).mul (hx i hi) hg.1, (lane_numberOps64 b P).mul (hx i hi) hg.2⟩⟩

/-! ## Both signs -/

/-- Largest numbers of alternating signs. -/
def swing (i : Nat) : BitVec 32 := if i % 4 = 0 then 0x7f7fffff#32 else if i % 4 = 1 then 0xff7fffff#32 else 0#32

/-- A buffer of 8 such numbers. -/
def swings : Mem (BitVec 32) := fun a => if a < 8 then some (swing a) else none

theorem swing_fin (i : Nat) : IsFin binary32 (swing i) := by
  unfold swing
  split
  · decide
  · split <;> decide

theorem swings_holds : Holds swings 0 8 swing := by
  intro i hi
  show (if 0 + i < 8 then some (swing (0 + i)) else none) = _
  rw [if_pos (by omega), Nat.zero_add]

theorem sse_hsum_nan (s : Bool) (f : Sse.Flags) (P : Platform 32) {v : Fin 4 → BitVec 32}
    (hv : ∀ l : Fin 4, v l = if l = 0 then 0x7f800000#32 else if l = 1 then 0xff800000#32 else 0#32) :
    ¬ Num binary32 ((((Build32.sse s f).target).vec ((Build32.sse s f).env P)).horizontalSum v) := by
  cases s
  · show ¬ Num binary32 (binary32.add (binary32.add (v 2) (v 0)) (binary32.add (v 3) (v 1)))
    rw [hv, hv, hv, hv]
    decide +kernel
  · show ¬ Num binary32 (binary32.add (binary32.add (v 0) (v 1)) (binary32.add (v 2) (v 3)))
    rw [hv, hv, hv, hv]
    decide +kernel

/-- MAX, -MAX, 0, 0, MAX, -MAX, 0, 0: the scalar sum is 0, but the lanes of the SSE class overflow to both infinities. -/
theorem C98_negation_sum (s : Bool) (f : Sse.Flags) (P : Platform 32) :
    (∀ i, IsFin binary32 (swing i)) ∧ SimdInput (Build32.sse s f).target swings 0 8#32 swing ∧
    horizontalSumVec ((Build32.sse s f).env P) 0 8#32 swings = .ok (0#32, swings) ∧
    ∃ r, horizontalSumVecSimd ((Build32.sse s f).env P) ((Build32.sse s f).vec P) 0 8#32 swings = .ok (r, swings) ∧
      ¬ Num binary32 r := by
  have h : SimdInput (Build32.sse s f).target swings 0 8#32 swing :=
    ⟨by decide, ⟨2, rfl⟩, Nat.dvd_zero _, swings_holds⟩
  refine ⟨swing_fin, h, (foldVec_ok (by decide) swings_holds).trans ?_, _, hsum_call _ h, ?_⟩
  · have e : foldSeq ((Build32.sse s f).env P).S.add ((Build32.sse s f).env P).S.zero swing 8 = 0#32 := by
      change foldSeq binary32.add binary32.posZero swing 8 = 0#32
      decide +kernel
    exact congrArg (fun r => Except.ok (r, swings)) e
  · have e : ∀ l : Fin 4, foldSeq binary32.add binary32.posZero (fun j => swing (j * 4 + l)) 2 =
        if l = 0 then 0x7f800000#32 else if l = 1 then 0xff800000#32 else 0#32 := by decide +kernel
    refine sse_hsum_nan s f P fun l => Eq.trans ?_ (e l)
    have z := ((Build32.sse s f).target.lawful ((Build32.sse s f).env P)).setVec ((Build32.sse s f).env P).S.zero l
    have hL : (((Build32.sse s f).target).vec ((Build32.sse s f).env P)).lane.add = binary32.add := by
      rw [Target.lane_eq]; rfl
    have hN : (8#32).toNat / (((Build32.sse s f).target).vec ((Build32.sse s f).env P)).size = 2 := by
      rw [Target.vec_size]; exact (show 8 / 4 = 2 from rfl)
    have key : ∀ {A B : BitVec 32 → BitVec 32 → BitVec 32} {z z' : BitVec 32} {g : Nat → BitVec 32} {N N' : Nat},
        A = B → z = z' → N = N' → foldSeq A z g N = foldSeq B z' g N' := by
      intros; subst_vars; rfl
    exact key hL (z.trans ((Build32.sse s f).adds P).zS) hN

/-! ## The hypotheses can be met -/

example : Holds (fun a => if a < 8 then some 0x3f800000#32 else none : Mem (BitVec 32)) 0 (8#32).toNat (fun _ => 0x3f800000#32) ∧
    IsFin binary32 0x3f800000#32 ∧ 0 ≤ binary32.toReal 0x3f800000#32 := by
  refine ⟨fun i hi => ?_, by decide, ?_⟩
  · show (if 0 + i < 8 then _ else _) = _
    rw [if_pos (by have : (8#32).toNat = 8 := rfl
                   omega)]
  · rw [(val32 (x := 0x3f800000#32) 1 (by decide +kernel)).2]; norm_num

end Nova
