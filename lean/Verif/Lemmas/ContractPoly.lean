import Verif.Lemmas.Contract
import Verif.Lemmas.ExpFinal
import Verif.Lemmas.TanFinal

/-!
# The polynomials of detail/vec_math.hpp with contraction
-/

namespace Nova
open FP VecMath
namespace Contract

theorem expPoly_track {c : Bool} {one x : BitVec 32} {v : ℝ} (h1 : Tr one 1 0 1) (hx : Tr x v (1/2^24) 0.34667) :
    ∀ r ∈ expPoly c one x, Tr r (expP v) (3903/2^34) (2897/2^11) := by
  intro r hr
  unfold expPoly at hr
  try dsimp only at hr
  simp only [List.mem_flatMap] at hr
  obtain ⟨p1, m1, p2, m2, p3, m3, p4, m4, p5, m5, m6⟩ := hr
  have t1 := Op.const (x := litF 1.386119984090328216552734375e-3) (1488335/2^30) (2907/2^21) (by decide +kernel) (by norm_num)
  have t2 := Op.const (x := litF 8.420792408287525177001953125e-3) (9041757/2^30) (69/2^13) (by decide +kernel) (by norm_num)
  have t3 := Op.const (x := litF 4.167006909847259521484375e-2) (2796431/2^26) (2731/2^16) (by decide +kernel) (by norm_num)
  have t4 := Op.const (x := litF 0.16665561497211456298828125) (11184069/2^26) (2731/2^14) (by decide +kernel) (by norm_num)
  have t5 := Op.const (x := litF 0.4999996721744537353515625) (16777205/2^25) (1/2^1) (by decide +kernel) (by norm_num)
  have t6 := Op.const (x := litF 1.00000035762786865234375) (8388611/2^23) (2049/2^11) (by decide +kernel) (by norm_num)
  have t7 := Op.mul (D := 63/2^17) (E := 979/2^43) hx.op t1 (by norm_num) (by norm_num) (by norm_num)
  have t8 := Op.add (D := 1167/2^17) (E := 353/2^39) m1 t2 t7 (by norm_num) (by norm_num) (by norm_num)
  have t9 := Op.mul (D := 3237/2^20) (E := 1031/2^40) hx.op t8 (by norm_num) (by norm_num) (by norm_num)
  have t10 := Op.add (D := 1467/2^15) (E := 1983/2^39) m2 t3 t9 (by norm_num) (by norm_num) (by norm_num)
  have t11 := Op.mul (D := 4069/2^18) (E := 333/2^36) hx.op t10 (by norm_num) (by norm_num) (by norm_num)
  have t12 := Op.add (D := 1493/2^13) (E := 135/2^33) m3 t4 t11 (by norm_num) (by norm_num) (by norm_num)
  have t13 := Op.mul (D := 2071/2^15) (E := 345/2^34) hx.op t12 (by norm_num) (by norm_num) (by norm_num)
  have t14 := Op.add (D := 2307/2^12) (E := 461/2^33) m4 t5 t13 (by norm_num) (by norm_num) (by norm_num)
  have t15 := Op.mul (D := 25/2^7) (E := 2193/2^35) hx.op t14 (by norm_num) (by norm_num) (by norm_num)
  have t16 := Op.add (D := 2449/2^11) (E := 1161/2^33) m5 t6 t15 (by norm_num) (by norm_num) (by norm_num)
  have t17 := Op.mul (D := 849/2^11) (E := 1227/2^33) hx.op t16 (by norm_num) (by norm_num) (by norm_num)
  have t18 := Op.add (D := 2897/2^11) (E := 3903/2^34) m6 h1.op t17 (by norm_num) (by norm_num) (by norm_num)
  refine t18.tr.congr ?_
  unfold expP
  push_cast
  ring

theorem sinPoly_track {c : Bool} {x : BitVec 32} {v : ℝ} (hx : Tr x v (4728/10^11) 0.7864) :
    ∀ r ∈ sinPoly c (binary32.mul x x) x, Tr r (sinP v) (2319/2^34) (891/2^10) := by
  intro r hr
  unfold sinPoly at hr
  try dsimp only at hr
  simp only [List.mem_flatMap] at hr
  obtain ⟨p1, m1, p2, m2, m3⟩ := hr
  have t1 := Op.mul (D := 1267/2^11) (E := 3823/2^35) hx.op hx.op (by norm_num) (by norm_num) (by norm_num)
  have t2 := Op.const (x := litD (-1.9515295891e-4)) (-13410809/2^36) (3275/2^24) (by decide +kernel) (by norm_num)
  have t3 := Op.const (x := litD 8.3321608736e-3) (4473295/2^29) (2185/2^18) (by decide +kernel) (by norm_num)
  have t4 := Op.const (x := litD 1.6666654611e-1) (11184803/2^26) (2731/2^14) (by decide +kernel) (by norm_num)
  have t5 := Op.mul (D := 4053/2^25) (E := 2035/2^46) t2 t1 (by norm_num) (by norm_num) (by norm_num)
  have t6 := Op.add (D := 2217/2^18) (E := 2345/2^42) m1 t5 t3 (by norm_num) (by norm_num) (by norm_num)
  have t7 := Op.mul (D := 343/2^16) (E := 3481/2^41) t6 t1 (by norm_num) (by norm_num) (by norm_num)
  have t8 := Op.sub (D := 2817/2^14) (E := 3253/2^38) m2 t7 t4 (by norm_num) (by norm_num) (by norm_num)
  have t9 := Op.mul (D := 1743/2^14) (E := 1127/2^35) t8 t1 (by norm_num) (by norm_num) (by norm_num)
  have t10 := Op.mul (D := 1371/2^14) (E := 2461/2^36) t9 hx.op (by norm_num) (by norm_num) (by norm_num)
  have t11 := Op.add (D := 891/2^10) (E := 2319/2^34) m3 t10 hx.op (by norm_num) (by norm_num) (by norm_num)
  refine t11.tr.congr ?_
  unfold sinP
  push_cast
  ring

theorem cosPoly_track {c : Bool} {x : BitVec 32} {v : ℝ} (hx : Tr x v (4728/10^11) 0.7864) :
    ∀ r ∈ cosPoly c (binary32.mul x x), Tr r (cosP v) (3117/2^34) (2715/2^11) := by
  intro r hr
  unfold cosPoly at hr
  try dsimp only at hr
  simp only [List.mem_flatMap] at hr
  obtain ⟨p1, m1, p2, m2, p3, m3, m4⟩ := hr
  have hz := trig_square hx
  have t1 := Op.const (x := litD 2.443315711809948e-5) (6716135/2^38) (205/2^23) (by decide +kernel) (by norm_num)
  have t2 := Op.const (x := litD 1.388731625493765e-3) (5964557/2^32) (2913/2^21) (by decide +kernel) (by norm_num)
  have t3 := Op.const (x := litD 4.166664568298827e-2) (11184805/2^28) (2731/2^16) (by decide +kernel) (by norm_num)
  have t4 := Op.const (x := litF 0.5) (1/2^1) (1/2^1) (by decide +kernel) (by norm_num)
  have t5 := Op.const (x := litD 1) (1) (1) (by decide +kernel) (by norm_num)
  have t6 := Op.mul (D := 4059/2^28) (E := 4077/2^50) t1 hz.op (by norm_num) (by norm_num) (by norm_num)
  have t7 := Op.sub (D := 2945/2^21) (E := 3073/2^45) m1 t6 t2 (by norm_num) (by norm_num) (by norm_num)
  have t8 := Op.mul (D := 911/2^20) (E := 1153/2^42) t7 hz.op (by norm_num) (by norm_num) (by norm_num)
  have t9 := Op.add (D := 697/2^14) (E := 3077/2^40) m2 t8 t3 (by norm_num) (by norm_num) (by norm_num)
  have t10 := Op.mul (D := 1725/2^16) (E := 2209/2^38) t9 hz.op (by norm_num) (by norm_num) (by norm_num)
  have t11 := Op.mul (D := 2135/2^17) (E := 2439/2^38) t10 hz.op (by norm_num) (by norm_num) (by norm_num)
  have t12 := Op.mul (D := 1267/2^12) (E := 1273/2^34) t4 hz.op (by norm_num) (by norm_num) (by norm_num)
  have t13 := Op.sub (D := 667/2^11) (E := 1759/2^34) m3 t11 t12 (by norm_num) (by norm_num) (by norm_num)
  have t14 := Op.add (D := 2715/2^11) (E := 3117/2^34) m4 t13 t5 (by norm_num) (by norm_num) (by norm_num)
  refine t14.tr.congr ?_
  unfold cosP
  push_cast
  ring

theorem tanPoly_track {c : Bool} {x : BitVec 32} {v : ℝ} (hx : Tr x v (4728/10^11) 0.7864) :
    ∀ r ∈ tanPoly c x, Tr r (tanP v) (3759/2^34) (2053/2^11) := by
  intro r hr
  unfold tanPoly at hr
  try dsimp only at hr
  simp only [List.mem_flatMap] at hr
  obtain ⟨p1, m1, p2, m2, p3, m3, p4, m4, p5, m5, m6⟩ := hr
  have t1 := Op.mul (D := 1267/2^11) (E := 3823/2^35) hx.op hx.op (by norm_num) (by norm_num) (by norm_num)
  have t2 := Op.const (x := litD 9.3892104923725128173828125e-3) (2520397/2^28) (1231/2^17) (by decide +kernel) (by norm_num)
  have t3 := Op.const (x := litD 3.1127030961215496063232421875e-3) (6684479/2^31) (51/2^14) (by decide +kernel) (by norm_num)
  have t4 := Op.const (x := litD 2.443529665470123291015625e-2) (1639825/2^26) (3203/2^17) (by decide +kernel) (by norm_num)
  have t5 := Op.const (x := litD 5.3409568965435028076171875e-2) (7168511/2^27) (3501/2^16) (by decide +kernel) (by norm_num)
  have t6 := Op.const (x := litD 0.1333882510662078857421875) (4475767/2^25) (1093/2^13) (by decide +kernel) (by norm_num)
  have t7 := Op.const (x := litD 0.3333315551280975341796875) (11184751/2^25) (2731/2^13) (by decide +kernel) (by norm_num)
  have t8 := Op.mul (D := 3047/2^19) (E := 765/2^39) t1 t2 (by norm_num) (by norm_num) (by norm_num)
  have t9 := Op.add (D := 585/2^16) (E := 529/2^38) m1 t3 t8 (by norm_num) (by norm_num) (by norm_num)
  have t10 := Op.mul (D := 181/2^15) (E := 691/2^38) t1 t9 (by norm_num) (by norm_num) (by norm_num)
  have t11 := Op.add (D := 3927/2^17) (E := 591/2^37) m2 t4 t10 (by norm_num) (by norm_num) (by norm_num)
  have t12 := Op.mul (D := 1215/2^16) (E := 3903/2^39) t1 t11 (by norm_num) (by norm_num) (by norm_num)
  have t13 := Op.add (D := 1179/2^14) (E := 3131/2^38) m3 t5 t12 (by norm_num) (by norm_num) (by norm_num)
  have t14 := Op.mul (D := 1459/2^15) (E := 1217/2^36) t1 t13 (by norm_num) (by norm_num) (by norm_num)
  have t15 := Op.add (D := 729/2^12) (E := 3893/2^37) m4 t6 t14 (by norm_num) (by norm_num) (by norm_num)
  have t16 := Op.mul (D := 451/2^12) (E := 3017/2^36) t1 t15 (by norm_num) (by norm_num) (by norm_num)
  have t17 := Op.add (D := 3633/2^13) (E := 2417/2^35) m5 t7 t16 (by norm_num) (by norm_num) (by norm_num)
  have t18 := Op.mul (D := 1993/2^12) (E := 313/2^31) hx.op t1 (by norm_num) (by norm_num) (by norm_num)
  have t19 := Op.mul (D := 221/2^10) (E := 15/2^27) t18 t17 (by norm_num) (by norm_num) (by norm_num)
  have t20 := Op.add (D := 2053/2^11) (E := 3759/2^34) m6 hx.op t19 (by norm_num) (by norm_num) (by norm_num)
  refine t20.tr.congr ?_
  unfold tanP
  push_cast
  ring

end Contract
end Nova
