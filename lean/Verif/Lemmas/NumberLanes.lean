import Verif.Lemmas.Numbers
import Verif.Props.C43_Math

/-! # The vector classes return numbers for finite arguments -/

namespace Nova
open FP VecMath Spec

theorem num_xor_sign {x s y : BitVec 32} (hs : s = y &&& 0x80000000#32) (h : Num binary32 x) : Num binary32 (s ^^^ x) := by
  unfold Num
  by_contra hc
  rw [Bool.not_eq_false] at hc
  have := nan_sign_xor (x := s ^^^ x) hs hc
  rw [← BitVec.xor_assoc, BitVec.xor_self, BitVec.zero_xor] at this
  exact absurd (h.symm.trans this) (by decide)

theorem two23_fin : IsFin binary32 0x4B000000#32 := by decide

theorem num_round23 {x : BitVec 32} (hx : Num binary32 x) : Num binary32 (round23 x) := by
  have hn := num_of_fin two23_fin
  exact num_xor_sign rfl (num_sub_fin (num_add (num_xor_sign rfl hx) hn (.inr two23_fin)) hn (.inr two23_fin))

theorem one_or_zero (c : Bool) : IsFin binary32 (maskOf c &&& 0x3f800000#32) := by
  cases c <;> decide

theorem half_fin32 : IsFin binary32 (binary32.ofRat 0.5) := by decide +kernel

theorem num_scalar_round {x : BitVec 32} (c : Bool) (hx : Num binary32 x) : Num binary32 (Scalar.round binary32 c x) := by
  unfold Scalar.round
  split
  · exact num_roundInt _ hx
  · exact num_roundInt _ (num_add hx (num_of_fin half_fin32) (.inr half_fin32))

theorem num_scalar_undenormalize {w : Nat} {F : Fmt w} {x : BitVec w} (hx : Num F x) : Num F (Scalar.undenormalize F x) := by
  unfold Scalar.undenormalize
  split <;> split <;> first | exact F.isNaN_posZero | exact hx

theorem num_scalar_trunc {w : Nat} {F : Fmt w} {x y : BitVec w} (h : Scalar.trunc F x = .ok y) : Num F y := by
  unfold Scalar.trunc at h
  dsimp only at h
  split at h
  · split at h
    · cases h; exact num_ofInt _
    · cases h
  · cases h

theorem lane_round_num (b : Build32) (P : Platform 32) {x : BitVec 32} (hx : Num binary32 x) : Num binary32 ((b.lane P).round x) := by
  cases hb : b.roundsAll
  · rw [round_lane32_explicit b hb P x]; exact num_round23 hx
  · rcases round_lane32 b P (x := x) (.inl hb) with ⟨-, e⟩ | ⟨-, e⟩ <;> rw [e]
    · exact num_scalar_round _ hx
    · exact num_roundInt _ hx

theorem lane_floor_num (b : Build32) (P : Platform 32) {x : BitVec 32} (hx : Num binary32 x) :
    Num binary32 ((b.lane P).floor x) ∧ Num binary32 ((b.lane P).ceil x) := by
  cases hb : b.floorsAll
  · obtain ⟨e, e'⟩ := floor_lane32_explicit b hb P x
    rw [e, e']
    exact ⟨num_sub_fin (num_round23 hx) (num_of_fin (one_or_zero _)) (.inr (one_or_zero _)),
      num_add (num_round23 hx) (num_of_fin (one_or_zero _)) (.inr (one_or_zero _))⟩
  · rw [floor_lane32 b P (.inl hb)]
    refine ⟨num_roundInt _ hx, ?_⟩
    rcases ceil_lane32 b P (x := x) (.inl hb) with e | ⟨-, -, e⟩ <;> rw [e]
    · exact num_roundInt _ hx
    · decide

theorem lane_sign_num (b : Build32) (P : Platform 32) {x : BitVec 32} (hx : Num binary32 x) : Num binary32 ((b.lane P).sign x) := by
  obtain ⟨p, n, z⟩ := C39_sign_float b P x hx
  rcases lt_trichotomy (binary32.toEReal x) 0 with h | h | h
  · rw [(n h).1]; decide
  · rw [(z h).1]
    split
    · decide
    · exact hx
  · rw [(p h).1]; decide

/-- The arithmetic of every class of `float`. -/
theorem lane_numberOps32 (b : Build32) (P : Platform 32) : NumberOps binary32 (b.lane P) (divides b) where
  order := lane_orderOps32 b P
  div hd x y hx hy h := by
    cases b with
    | generic => exact num_div hx hy h
    | sse s f => exact num_div hx hy h
    | avx f => exact num_div hx hy h
    | neon => exact absurd hd (by decide)
    | altivec => exact absurd hd (by decide)
  madd x y z hx hy hz := by
    cases b with
    | generic => exact num_muladd hx hy hz
    | sse s f => exact num_madd f.fma hx hy hz
    | avx f => exact num_madd f hx hy hz
    | neon => exact num_add (num_of_fin hz) (num_mul hy hx) (.inl hz)
    | altivec => exact num_fma hx hy hz
  abs x := abs_lane32 b P x
  sign _ hx := lane_sign_num b P (num_of_fin hx)
  round _ hx := lane_round_num b P (num_of_fin hx)
  floor _ hx := (lane_floor_num b P (num_of_fin hx)).1
  ceil _ hx := (lane_floor_num b P (num_of_fin hx)).2
  frac x := by cases b <;> rfl
  trunc x y hx h := by
    cases b with
    | generic => exact num_scalar_trunc h
    | sse s f =>
      change (if f.sse41 then Except.ok _ else _) = _ at h
      split at h
      · cases h; exact num_roundInt _ (num_of_fin hx)
      · exact num_scalar_trunc h
    | avx f => cases h; exact num_roundInt _ (num_of_fin hx)
    | neon => exact num_scalar_trunc h
    | altivec => cases h; exact num_ofInt _
  undenormalize x hx := by
    have u : ∀ b : Build32, b.hasUndenormalize = true → Num binary32 ((b.lane P).undenormalize x) := fun b hb => by
      rw [undenormalize_lane32 b hb]
      split
      · decide
      · exact num_of_fin hx
    cases b with
    | generic => exact u _ rfl
    | sse s f => exact u _ rfl
    | avx f => exact u _ rfl
    | neon => exact num_scalar_undenormalize (num_of_fin hx)
    | altivec => exact num_scalar_undenormalize (num_of_fin hx)
  softclip x hx := (C48_softclip_finite_float b P x hx).2.1
  cmp r x y hx hy := by
    rw [rel_lane32 b P r x y (.inr ⟨num_of_fin hx, num_of_fin hy⟩)]
    split <;> decide

/-- The arithmetic of every class of `double`. -/
theorem lane_numberOps64 (b : Build64) (P : Platform 64) : NumberOps binary64 (b.lane P) true where
  order := lane_orderOps64 b P
  div _ x y hx hy h := by cases b <;> exact num_div hx hy h
  madd x y z hx hy hz := by
    cases b with
    | generic => exact num_muladd hx hy hz
    | sse2 s f => exact num_madd f hx hy hz
    | avx f => exact num_madd f hx hy hz
  abs x := abs_lane64 b P x
  sign x hx := by
    obtain ⟨p, n, z⟩ := C39_sign_double b P x (num_of_fin hx)
    rcases lt_trichotomy (binary64.toEReal x) 0 with h | h | h
    · rw [(n h).1]; decide +kernel
    · rw [(z h).1]
      split
      · decide +kernel
      · exact num_of_fin hx
    · rw [(p h).1]; decide +kernel
  round x hx := num_of_fin (C41_double b P x hx).2.2.2.2.1
  floor x hx := num_of_fin (C41_double b P x hx).2.2.1
  ceil x hx := num_of_fin (C41_double b P x hx).2.2.2.1
  frac x := by
    cases b with
    | generic => rfl
    | sse2 s f => cases s <;> rfl
    | avx f => rfl
  trunc x y hx h := by
    cases b with
    | generic => exact num_scalar_trunc h
    | sse2 s f =>
      cases s
      · exact num_scalar_trunc h
      · cases h; exact num_roundInt _ (num_of_fin hx)
    | avx f => cases h; exact num_roundInt _ (num_of_fin hx)
  undenormalize x hx := by
    rw [undenormalize_lane64 b P x]
    split
    · decide +kernel
    · exact num_of_fin hx
  softclip x hx := (C48_softclip_finite_double b P x hx).2.1
  cmp r x y hx hy := by
    rw [rel_lane64 b P r x y (.inr ⟨num_of_fin hx, num_of_fin hy⟩)]
    split <;> decide +kernel

end Nova
