import Verif.SpecExchange
import Verif.Lemmas.OrderLanes
import Verif.Lemmas.PolarityLanes
import Verif.Props.C78_Same
import Verif.Props.C37_MinMax

/-! # Lemmas on exchanging arguments -/

namespace Nova
open FP Spec

variable {w : Nat} {F : Fmt w}

theorem Num.nan {x : BitVec w} (h : Num F x) : F.isNaN x = false := h

/-- Two infinities of the same sign are the same pattern. -/
theorem inf_eq {x y : BitVec w} (hx : F.isInf x = true) (hy : F.isInf y = true) (hs : F.neg x = F.neg y) : x = y := by
  refine F.ext hs ?_
  simp only [Fmt.isInf, decide_eq_true_eq, beq_iff_eq] at hx hy
  rw [hx, hy]

theorem add_comm_num {x y : BitVec w} (hx : Num F x) (hy : Num F y) : F.add x y = F.add y x := by
  have hx' : F.isNaN x = false := hx
  have hy' : F.isNaN y = false := hy
  cases hi : F.isInf y
  · exact add_comm_not_nan F hx' hy' hi
  · cases hj : F.isInf x
    · exact (add_comm_not_nan F hy' hx' hj).symm
    · unfold Fmt.add
      simp only [hx', hy', hi, hj, Bool.or_self, Bool.false_eq_true, if_false, if_true, Bool.true_and]
      by_cases hs : F.neg x = F.neg y
      · rw [inf_eq hj hi hs]
      · have hs' : ¬ F.neg y = F.neg x := fun h => hs h.symm
        rw [if_pos (by simpa using hs), if_pos (by simpa using hs')]

theorem mul_comm_num {x y : BitVec w} (hx : Num F x) (hy : Num F y) : F.mul x y = F.mul y x := by
  have hx' : F.isNaN x = false := hx
  have hy' : F.isNaN y = false := hy
  unfold Fmt.mul
  have e : (F.neg x != F.neg y) = (F.neg y != F.neg x) := Bool.xor_comm _ _
  simp only [hx', hy', Bool.or_self, Bool.false_eq_true, if_false, e, Bool.or_comm (F.isInf x), Bool.or_comm (F.isZero x),
    Nat.mul_comm (mag F.mb (F.code x))]

theorem fma_comm_num {x y : BitVec w} (hx : Num F x) (hy : Num F y) (z : BitVec w) : F.fma x y z = F.fma y x z := by
  have hx' : F.isNaN x = false := hx
  have hy' : F.isNaN y = false := hy
  unfold Fmt.fma
  have e : (F.neg x != F.neg y) = (F.neg y != F.neg x) := Bool.xor_comm _ _
  simp only [hx', hy', Bool.or_self, Bool.false_eq_true, if_false, e, Bool.or_comm (F.isInf x), Bool.or_comm (F.isZero x),
    Int.mul_comm (F.units x)]

/-- What exchanging arguments needs to know of a class. -/
structure ExchangeOps (F : Fmt w) (A : Arith (BitVec w)) : Prop where
  mul : ∀ {x y}, Num F x → Num F y → A.mul x y = A.mul y x
  madd : ∀ {x y}, Num F x → Num F y → ∀ z, A.madd x y z = A.madd y x z

theorem mul_add_comm {x y : BitVec w} (hx : Num F x) (hy : Num F y) (z : BitVec w) :
    F.add (F.mul x y) z = F.add (F.mul y x) z := by rw [mul_comm_num hx hy]

theorem fused_comm (f : Bool) {x y : BitVec w} (hx : Num F x) (hy : Num F y) (z : BitVec w) :
    (if f then F.fma x y z else F.add (F.mul x y) z) = (if f then F.fma y x z else F.add (F.mul y x) z) := by
  rw [mul_comm_num hx hy, fma_comm_num hx hy]

theorem add_mul_comm {x y : BitVec w} (hx : Num F x) (hy : Num F y) (z : BitVec w) :
    F.add z (F.mul y x) = F.add z (F.mul x y) := by rw [mul_comm_num hx hy]

theorem exchange32 (b : Build32) (P : Platform 32) : ExchangeOps binary32 (b.lane P) where
  mul := fun {x y} hx hy => by
    by_cases hb : multiplies b = true
    · rw [lane_mul32' b hb]; exact mul_comm_num hx hy
    · cases b <;> first | exact absurd rfl hb | skip
      rw [altivec_mul, altivec_mul]
      exact fma_comm_num hx hy _
  madd := fun {x y} hx hy z => by
    cases b with
    | generic => exact mul_add_comm hx hy z
    | sse s f => exact fused_comm f.fma hx hy z
    | avx f => exact fused_comm f hx hy z
    | neon => exact add_mul_comm hx hy z
    | altivec => exact fma_comm_num hx hy z

theorem exchange64 (b : Build64) (P : Platform 64) : ExchangeOps binary64 (b.lane P) where
  mul := fun {x y} hx hy => by rw [(lane_math64 b P).mul]; exact mul_comm_num hx hy
  madd := fun {x y} hx hy z => by
    cases b with
    | generic => exact mul_add_comm hx hy z
    | sse2 s f => exact fused_comm f hx hy z
    | avx f => exact fused_comm f hx hy z

end Nova
