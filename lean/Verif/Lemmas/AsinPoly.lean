import Verif.Lemmas.AtanPoly
import Mathlib.Analysis.SpecialFunctions.Trigonometric.InverseDeriv

/-!
# The polynomial of `vec_asin_float`
-/

namespace Nova
open FP VecMath

/-- The inner polynomial of `vec_asin_float`, with its coefficients as real numbers. -/
noncomputable def asinQ (z : ℝ) : ℝ :=
  2796217 / 16777216 + z * (10060035 / 134217728 + z * (12205497 / 268435456 + z * (12984493 / 536870912 + z * (11316437 / 268435456))))

/-- The approximation of arcsin. -/
noncomputable def asinP (x : ℝ) : ℝ := x + x ^ 3 * asinQ (x * x)

/-- The Taylor polynomial of arcsin of degree 27, divided by `x`, as a polynomial in `x²`. -/
def asinTs : List ℚ := [1, 1/6, 3/40, 5/112, 35/1152, 63/2816, 231/13312, 143/10240, 6435/557056, 12155/1245184, 46189/5505024, 88179/12058624, 676039/104857600, 1300075/226492416]
/-- Its derivative, as a polynomial in `x²`. -/
def asinDs : List ℚ := [1, 1/2, 3/8, 5/16, 35/128, 63/256, 231/1024, 429/2048, 6435/32768, 12155/65536, 46189/262144, 88179/524288, 676039/4194304, 1300075/8388608]
/-- `2^-30 …`: lower bound of the square of the derivative times `1 - z` -/
def asinSl : List ℚ := [1999999999/1000000000000000000, 0, 0, 0, 0, 0, 0, 0, 0, 0, 0, 0, 0, 0, -5014575/16777216, -2340135/16777216, -105306075/1073741824, -10324125/134217728, -136507875/2147483648, -116390925/2147483648, -1621713555/34359738368, -717084225/17179869184, -20534684625/549755813888, -18550657125/549755813888, -540442477575/17592186044416, -123810458499/4398046511104, -1825410606075/70368744177664, -1690195005625/70368744177664]
/-- upper bound -/
def asinSh : List ℚ := [2000000001/1000000000000000000, 0, 0, 0, 0, 0, 0, 0, 0, 0, 0, 0, 0, 0, 5014575/16777216, 2340135/16777216, 105306075/1073741824, 10324125/134217728, 136507875/2147483648, 116390925/2147483648, 1621713555/34359738368, 717084225/17179869184, 20534684625/549755813888, 18550657125/549755813888, 540442477575/17592186044416, 123810458499/4398046511104, 1825410606075/70368744177664, 1690195005625/70368744177664]
/-- `6.2e-9 - (asinP x / x - T x / x)` -/
def asinLow : List ℚ := [31/5000000000, -43/50331648, 31473/671088640, -1552399/1879048192, 29940203/4831838208, -58420519/2952790016, 231/13312, 143/10240, 6435/557056, 12155/1245184, 46189/5505024, 88179/12058624, 676039/104857600, 1300075/226492416]
/-- `6.2e-9 + (asinP x / x - T x / x)` -/
def asinHigh : List ℚ := [31/5000000000, 43/50331648, -31473/671088640, 1552399/1879048192, -29940203/4831838208, 58420519/2952790016, -231/13312, -143/10240, -6435/557056, -12155/1245184, -46189/5505024, -88179/12058624, -676039/104857600, -1300075/226492416]

/-- A function with nonnegative derivative that starts at 0. -/
theorem nonneg_of_deriv_on {g g' : ℝ → ℝ} {b : ℝ} (h0 : g 0 = 0) (hd : ∀ x, 0 ≤ x → x ≤ b → HasDerivAt g (g' x) x)
    (hp : ∀ x, 0 ≤ x → x ≤ b → 0 ≤ g' x) {x : ℝ} (hx : 0 ≤ x) (hb : x ≤ b) : 0 ≤ g x := by
  rw [← h0]
  refine monotoneOn_of_deriv_nonneg (convex_Icc 0 b)
    (fun y hy => (hd y hy.1 hy.2).continuousAt.continuousWithinAt)
    (fun y hy => ?_) ?_ (Set.mem_Icc.mpr ⟨le_rfl, hx.trans hb⟩) (Set.mem_Icc.mpr ⟨hx, hb⟩) hx
  · rw [interior_Icc] at hy
    exact (hd y hy.1.le hy.2.le).differentiableAt.differentiableWithinAt
  · intro y hy
    rw [interior_Icc] at hy
    rw [(hd y hy.1.le hy.2.le).deriv]
    exact hp y hy.1.le hy.2.le

theorem asinT_deriv (x : ℝ) : HasDerivAt (fun x : ℝ => x * Poly.eval asinTs (x * x)) (Poly.eval asinDs (x * x)) x := by
  have e : (fun x : ℝ => x * Poly.eval asinTs (x * x)) = fun x => (1 / 1) * x ^ 1 + (1 / 6) * x ^ 3 + (3 / 40) * x ^ 5 + (5 / 112) * x ^ 7 + (35 / 1152) * x ^ 9 + (63 / 2816) * x ^ 11 + (231 / 13312) * x ^ 13 + (143 / 10240) * x ^ 15 + (6435 / 557056) * x ^ 17 + (12155 / 1245184) * x ^ 19 + (46189 / 5505024) * x ^ 21 + (88179 / 12058624) * x ^ 23 + (676039 / 104857600) * x ^ 25 + (1300075 / 226492416) * x ^ 27 := by
    funext x
    simp only [asinTs, Poly.eval_cons, Poly.eval_nil]; push_cast; ring
  rw [e]
  have h : ∀ (n : ℕ) (c : ℝ), HasDerivAt (fun x : ℝ => c * x ^ (n + 1)) (c * ((n + 1 : ℕ) * x ^ n)) x := by
    intro n c
    have := (hasDerivAt_pow (n + 1) x).const_mul c
    simpa using this
  have s := ((((((((((((((h 0 ((1) / 1)).add (h 2 (1 / 6))).add (h 4 (3 / 40))).add (h 6 (5 / 112))).add (h 8 (35 / 1152))).add (h 10 (63 / 2816))).add (h 12 (231 / 13312))).add (h 14 (143 / 10240))).add (h 16 (6435 / 557056))).add (h 18 (12155 / 1245184))).add (h 20 (46189 / 5505024))).add (h 22 (88179 / 12058624))).add (h 24 (676039 / 104857600))).add (h 26 (1300075 / 226492416)))
  refine s.congr_deriv ?_
  simp only [asinDs, Poly.eval_cons, Poly.eval_nil]
  push_cast
  ring

theorem asinT_slope {x : ℝ} (hx : 0 ≤ x) (h : x ≤ 1 / 2) :
    (1 - 1 / 10 ^ 9) * (1 / √(1 - x ^ 2)) ≤ Poly.eval asinDs (x * x) ∧
    Poly.eval asinDs (x * x) ≤ (1 + 1 / 10 ^ 9) * (1 / √(1 - x ^ 2)) := by
  have hz0 : 0 ≤ x * x := mul_self_nonneg x
  have hz : x * x ≤ 0.25 := by nlinarith
  have l : 0 ≤ Poly.eval asinSl (x * x) := Poly.check_sound (n := 14) (l := 0) (h := 0.25) (by decide +kernel)
    (by norm_num; exact hz0) (by norm_num at hz ⊢; exact hz)
  have u : 0 ≤ Poly.eval asinSh (x * x) := Poly.check_sound (n := 14) (l := 0) (h := 0.25) (by decide +kernel)
    (by norm_num; exact hz0) (by norm_num at hz ⊢; exact hz)
  have e1 : Poly.eval asinSl (x * x) = Poly.eval asinDs (x * x) ^ 2 * (1 - x * x) - (1 - 1 / 10 ^ 9) ^ 2 := by
    generalize x * x = z
    simp only [asinSl, asinDs, Poly.eval_cons, Poly.eval_nil]; push_cast; ring
  have e2 : Poly.eval asinSh (x * x) = (1 + 1 / 10 ^ 9) ^ 2 - Poly.eval asinDs (x * x) ^ 2 * (1 - x * x) := by
    generalize x * x = z
    simp only [asinSh, asinDs, Poly.eval_cons, Poly.eval_nil]; push_cast; ring
  rw [e1] at l
  rw [e2] at u
  have hD : 0 ≤ Poly.eval asinDs (x * x) := by
    simp only [asinDs, Poly.eval_cons, Poly.eval_nil]; push_cast; positivity
  rw [show x ^ 2 = x * x by ring]
  generalize x * x = z at *
  generalize Poly.eval asinDs z = D at *
  have hs : 0 < √(1 - z) := Real.sqrt_pos.mpr (by norm_num at *; linarith)
  have hss : √(1 - z) ^ 2 = 1 - z := Real.sq_sqrt (by norm_num at *; linarith)
  rw [← hss] at l u
  generalize √(1 - z) = t at *
  rw [mul_one_div, mul_one_div, div_le_iff₀ hs, le_div_iff₀ hs]
  rw [← mul_pow, sub_nonneg] at l u
  exact ⟨(sq_le_sq₀ (by norm_num) (by positivity)).mp l, (sq_le_sq₀ (by positivity) (by norm_num)).mp u⟩

theorem asinT_error {x : ℝ} (hx : 0 ≤ x) (h : x ≤ 1 / 2) :
    |x * Poly.eval asinTs (x * x) - Real.arcsin x| ≤ 1 / 10 ^ 9 * Real.arcsin x := by
  have hd : ∀ y, 0 ≤ y → y ≤ 1 / 2 → HasDerivAt Real.arcsin (1 / √(1 - y ^ 2)) y := fun y h0 h1 =>
    Real.hasDerivAt_arcsin (by linarith) (by linarith)
  have l := nonneg_of_deriv_on (g := fun y => y * Poly.eval asinTs (y * y) - (1 - 1 / 10 ^ 9) * Real.arcsin y)
    (g' := fun y => Poly.eval asinDs (y * y) - (1 - 1 / 10 ^ 9) * (1 / √(1 - y ^ 2)))
    (b := 1 / 2) (by simp)
    (fun y h0 h1 => (asinT_deriv y).sub ((hd y h0 h1).const_mul _))
    (fun y h0 h1 => sub_nonneg.mpr (asinT_slope h0 h1).1) hx h
  have u := nonneg_of_deriv_on (g := fun y => (1 + 1 / 10 ^ 9) * Real.arcsin y - y * Poly.eval asinTs (y * y))
    (g' := fun y => (1 + 1 / 10 ^ 9) * (1 / √(1 - y ^ 2)) - Poly.eval asinDs (y * y))
    (b := 1 / 2) (by simp)
    (fun y h0 h1 => ((hd y h0 h1).const_mul _).sub (asinT_deriv y))
    (fun y h0 h1 => sub_nonneg.mpr (asinT_slope h0 h1).2) hx h
  rw [abs_le]
  constructor <;> linarith

theorem arcsin_le {x : ℝ} (hx : 0 ≤ x) (h : x ≤ 1 / 2) : x ≤ Real.arcsin x ∧ Real.arcsin x ≤ 1.0473 * x := by
  have hd : ∀ y, 0 ≤ y → y ≤ 1 / 2 → HasDerivAt Real.arcsin (1 / √(1 - y ^ 2)) y := fun y h0 h1 =>
    Real.hasDerivAt_arcsin (by linarith) (by linarith)
  constructor
  · have := nonneg_of_deriv_on (g := fun y => Real.arcsin y - y) (g' := fun y => 1 / √(1 - y ^ 2) - 1)
      (b := 1 / 2) (by simp) (fun y h0 h1 => (hd y h0 h1).sub (hasDerivAt_id y)) (fun y h0 h1 => by
        have hp : 0 < √(1 - y ^ 2) := Real.sqrt_pos.mpr (by nlinarith)
        have h1 : √(1 - y ^ 2) ≤ 1 := Real.sqrt_le_one.mpr (by nlinarith)
        rw [sub_nonneg, le_div_iff₀ hp]; linarith) hx h
    linarith
  · have e := abs_le.mp (asinT_error hx h)
    have b : Poly.eval asinTs (x * x) ≤ Poly.eval asinTs 0.25 := by
      have hz : x * x ≤ 0.25 := by nlinarith
      have hz0 : 0 ≤ x * x := mul_self_nonneg x
      generalize x * x = z at *
      simp only [asinTs, Poly.eval_cons, Poly.eval_nil]; push_cast
      gcongr
    have b2 : Poly.eval asinTs 0.25 ≤ 1.0472 := by
      simp only [asinTs, Poly.eval_cons, Poly.eval_nil]; push_cast; norm_num
    have b3 := mul_le_mul_of_nonneg_left (b.trans b2) hx
    norm_num at *
    linarith

/-- arcsin expands distances at most by 1.1548 below 1/2. -/
theorem arcsin_lipschitz {x y : ℝ} (hx : 0 ≤ x) (hx2 : x ≤ 1 / 2) (hy : 0 ≤ y) (hy2 : y ≤ 1 / 2) :
    |Real.arcsin x - Real.arcsin y| ≤ 1.1548 * |x - y| := by
  have := Convex.norm_image_sub_le_of_norm_hasDerivWithin_le (𝕜 := ℝ) (f := Real.arcsin)
    (f' := fun x => 1 / √(1 - x ^ 2)) (C := 1.1548) (s := Set.Icc 0 (1 / 2)) (x := y) (y := x)
    (fun z hz => (Real.hasDerivAt_arcsin (by linarith [hz.1]) (by linarith [hz.2])).hasDerivWithinAt)
    (fun z hz => by
      have hz1 := hz.1
      have hz2 := hz.2
      have hp : 0.866 ≤ √(1 - z ^ 2) := Real.le_sqrt_of_sq_le (by norm_num at *; nlinarith)
      generalize √(1 - z ^ 2) = t at *
      have ht : 0 < t := lt_of_lt_of_le (by norm_num) hp
      rw [Real.norm_eq_abs, abs_of_pos (one_div_pos.mpr ht), div_le_iff₀ ht]
      norm_num at *
      linarith) (convex_Icc _ _) ⟨hy, hy2⟩ ⟨hx, hx2⟩
  simpa [Real.norm_eq_abs] using this

theorem asinP_error {x : ℝ} (hx : 0 ≤ x) (h : x ≤ 1 / 2) : |asinP x - Real.arcsin x| ≤ 73 / 10 ^ 10 * x := by
  have hz0 : 0 ≤ x * x := mul_self_nonneg x
  have hz : x * x ≤ 0.25 := by nlinarith
  have l : 0 ≤ Poly.eval asinLow (x * x) := Poly.check_sound (n := 14) (l := 0) (h := 0.25) (by decide +kernel)
    (by norm_num; exact hz0) (by norm_num at hz ⊢; exact hz)
  have u : 0 ≤ Poly.eval asinHigh (x * x) := Poly.check_sound (n := 14) (l := 0) (h := 0.25) (by decide +kernel)
    (by norm_num; exact hz0) (by norm_num at hz ⊢; exact hz)
  have e1 : x * Poly.eval asinLow (x * x) = 62 / 10 ^ 10 * x - (asinP x - x * Poly.eval asinTs (x * x)) := by
    simp only [asinLow, asinTs, Poly.eval_cons, Poly.eval_nil, asinP, asinQ]; push_cast; ring
  have e2 : x * Poly.eval asinHigh (x * x) = 62 / 10 ^ 10 * x + (asinP x - x * Poly.eval asinTs (x * x)) := by
    simp only [asinHigh, asinTs, Poly.eval_cons, Poly.eval_nil, asinP, asinQ]; push_cast; ring
  have l' := mul_nonneg hx l
  have u' := mul_nonneg hx u
  rw [e1] at l'
  rw [e2] at u'
  have t := abs_le.mp (asinT_error hx h)
  have q := (arcsin_le hx h).2
  rw [abs_le]
  norm_num at *
  constructor <;> linarith

/-- The inner polynomial of `vec_asin_float` (detail/vec_math.hpp:397). -/
def asinHorner (V : LaneOps 32) (x2 : BitVec 32) : BitVec 32 :=
  V.add (litD 0.166667520999908447265625)
    (V.mul x2 (V.add (litD 7.4953101575374603271484375e-2)
    (V.mul x2 (V.add (litD 4.54690195620059967041015625e-2)
    (V.mul x2 (V.add (litD 2.418550290167331695556640625e-2)
    (V.mul x2 (litD 4.21570129692554473876953125e-2))))))))

theorem asinHorner_track {V : LaneOps 32} (h : V.Ieee) {x : BitVec 32} {v : ℝ} (hx : Tr x v 0 (1/2)) :
    Tr (asinHorner V (binary32.mul x x)) (asinQ (v * v)) (2191/2^37) (1547/2^13) := by
  have t1 := Tr.mul (D := 1/2^2) (E := 2049/2^37) hx hx (by norm_num) (by norm_num) (by norm_num)
  have t2 := Tr.const (x := litD 0.166667520999908447265625) (2796217/2^24) (2731/2^14) (by decide +kernel) (by norm_num)
  have t3 := Tr.const (x := litD 7.4953101575374603271484375e-2) (10060035/2^27) (2457/2^15) (by decide +kernel) (by norm_num)
  have t4 := Tr.const (x := litD 4.54690195620059967041015625e-2) (12205497/2^28) (745/2^14) (by decide +kernel) (by norm_num)
  have t5 := Tr.const (x := litD 2.418550290167331695556640625e-2) (12984493/2^29) (3171/2^17) (by decide +kernel) (by norm_num)
  have t6 := Tr.const (x := litD 4.21570129692554473876953125e-2) (11316437/2^28) (2763/2^16) (by decide +kernel) (by norm_num)
  have t7 := Tr.mul (D := 2763/2^18) (E := 691/2^39) t1 t6 (by norm_num) (by norm_num) (by norm_num)
  have t8 := Tr.add (D := 2277/2^16) (E := 915/2^38) t5 t7 (by norm_num) (by norm_num) (by norm_num)
  have t9 := Tr.mul (D := 2277/2^18) (E := 1027/2^39) t1 t8 (by norm_num) (by norm_num) (by norm_num)
  have t10 := Tr.add (D := 1775/2^15) (E := 2803/2^39) t4 t9 (by norm_num) (by norm_num) (by norm_num)
  have t11 := Tr.mul (D := 1775/2^17) (E := 3177/2^40) t1 t10 (by norm_num) (by norm_num) (by norm_num)
  have t12 := Tr.add (D := 2901/2^15) (E := 2245/2^38) t3 t11 (by norm_num) (by norm_num) (by norm_num)
  have t13 := Tr.mul (D := 2901/2^17) (E := 1287/2^38) t1 t12 (by norm_num) (by norm_num) (by norm_num)
  have t14 := Tr.add (D := 1547/2^13) (E := 2191/2^37) t2 t13 (by norm_num) (by norm_num) (by norm_num)
  unfold asinHorner
  rw [h.add, h.mul]
  refine t14.congr ?_
  unfold asinQ
  push_cast
  ring

end Nova
