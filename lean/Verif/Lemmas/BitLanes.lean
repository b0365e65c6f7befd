import Verif.Lemmas.Masks
import Verif.SpecFloat

/-! # The lane functions of the builds in terms of the operations of the format -/

namespace Nova
open FP VecMath

theorem abs_lane32 (b : Build32) (P : Platform 32) (x : BitVec 32) :
    (b.lane P).abs x = binary32.fabs x := by
  cases b with
  | generic => rfl
  | sse s f =>
    change Sse.absMask f.sse2 (P.x86 binary32) &&& x = _
    rw [sse_absMask, fabs32]
  | avx f => exact fabs32 x
  | neon => change x &&& 0x7fffffff#32 = _; rw [BitVec.and_comm, fabs32]
  | altivec => change x &&& 0x7fffffff#32 = _; rw [BitVec.and_comm, fabs32]

theorem abs_lane64 (b : Build64) (P : Platform 64) (x : BitVec 64) :
    (b.lane P).abs x = binary64.fabs x := by
  cases b with
  | generic => rfl
  | sse2 s f => change Dbl.absMask _ &&& x = _; rw [dbl_absMask, fabs64]
  | avx f => change Dbl.absMask _ &&& x = _; rw [dbl_absMask, fabs64]

theorem fabs_toNat {w : Nat} (F : Fmt w) (x : BitVec w) : (F.fabs x).toNat = x.toNat % 2 ^ (w - 1) := by
  rw [F.toNat_eq, F.neg_fabs, F.code_fabs]; simp [Fmt.code]

theorem maskOf_and_one {w : Nat} {b : Bool} {p : Prop} {one : BitVec w} (h : b = true ↔ p) :
    (p → maskOf b &&& one = one) ∧ (¬p → maskOf b &&& one = 0#w) := by
  rw [maskOf_and]
  cases b
  · refine ⟨fun hp => absurd (h.mpr hp) (by simp), fun _ => rfl⟩
  · exact ⟨fun _ => rfl, fun hp => absurd (h.mp rfl) hp⟩

theorem ofBool_iff {w : Nat} (F : Fmt w) {b : Bool} {p : Prop} {one : BitVec w}
    (h1 : F.ofInt 1 = one) (h : b = true ↔ p) :
    (p → Scalar.ofBool F b = one) ∧ (¬p → Scalar.ofBool F b = 0#w) := by
  unfold Scalar.ofBool
  rw [h1, F.posZero_eq]
  cases b
  · refine ⟨fun hp => absurd (h.mpr hp) (by simp), fun _ => rfl⟩
  · exact ⟨fun _ => rfl, fun hp => absurd (h.mp rfl) hp⟩

/-- The comparison of the processor behind a relational operator. -/
def Rel.test {w : Nat} (F : Fmt w) (r : Rel) (x y : BitVec w) : Bool :=
  match r with
  | less => F.ltb x y
  | lessEqual => F.leb x y
  | greater => F.ltb y x
  | greaterEqual => F.leb y x
  | equal => F.eqb x y
  | notEqual => !F.eqb x y

theorem Rel.test_iff {w : Nat} (F : Fmt w) (r : Rel) (x y : BitVec w) :
    r.test F x y = true ↔ r.Holds F x y := by
  cases r <;> unfold Rel.test Rel.Holds Num
  · exact F.ltb_iff_value
  · exact F.leb_iff_value
  · rw [F.ltb_iff_value]; tauto
  · rw [F.leb_iff_value]; tauto
  · exact F.eqb_iff_value
  · rw [← F.eqb_iff_value]; simp

theorem rel_scalar32 (P : Platform 32) (r : Rel) (x y : BitVec 32) :
    r.op.f (Build32.scalar P) x y = Scalar.ofBool binary32 (r.test binary32 x y) := by
  cases r <;> rfl

theorem rel_scalar64 (P : Platform 64) (r : Rel) (x y : BitVec 64) :
    r.op.f (Build64.scalar P) x y = Scalar.ofBool binary64 (r.test binary64 x y) := by
  cases r <;> rfl

/-- AVX builds -/
def Build32.isAvx : Build32 → Bool
  | .avx _ => true
  | _ => false

/-- AVX builds -/
def Build64.isAvx : Build64 → Bool
  | .avx _ => true
  | _ => false

theorem rel_lane32 (b : Build32) (P : Platform 32) (r : Rel) (x y : BitVec 32)
    (h : (b.isAvx && r.isGreater) = false ∨ (Num binary32 x ∧ Num binary32 y)) :
    r.op.f (b.lane P) x y = if r.test binary32 x y then 0x3f800000#32 else 0#32 := by
  have ho := one32
  cases b with
  | generic =>
    change r.op.f (Build32.scalar P) x y = _
    rw [rel_scalar32, Scalar.ofBool, one32, binary32.posZero_eq]
  | sse s f =>
    have h1 := sse_one f.sse2 P
    cases r <;>
    · refine Eq.trans ?_ (maskOf_and _ _)
      rw [← h1]; rfl
  | avx f =>
    have h1 := litF_one
    have hg : r = .greater ∨ r = .greaterEqual → Num binary32 x ∧ Num binary32 y := by
      rintro (rfl | rfl) <;> exact h.resolve_left (by simp [Build32.isAvx, Rel.isGreater])
    cases r <;>
    first
    | (refine Eq.trans ?_ (maskOf_and _ _)
       rw [← h1]; rfl)
    | (obtain ⟨hx, hy⟩ := hg (by simp)
       refine Eq.trans ?_ (maskOf_and _ _)
       rw [← h1]
       change maskOf (!_) &&& litF 1 = _
       congr 2
       simp only [Rel.test, Platform.x86, Hw.ieee]
       rw [binary32.ltb_of_num ‹_› ‹_›, binary32.leb_of_num ‹_› ‹_›]
       rw [← decide_not, decide_eq_decide]; omega)
  | neon =>
    have h1 := litF_one
    cases r <;>
    first
    | (refine Eq.trans ?_ (maskOf_and _ _)
       rw [← h1]; rfl)
    | (refine Eq.trans ?_ (maskOf_and _ _)
       rw [← h1]
       change ~~~maskOf _ &&& litF 1 = _
       rw [not_maskOf]; rfl)
  | altivec =>
    have h1 := litF_one
    cases r <;>
    first
    | (refine Eq.trans ?_ (maskOf_and _ _)
       rw [← h1]; rfl)
    | (refine Eq.trans ?_ (maskOf_and _ _)
       rw [← h1]
       change ~~~maskOf _ &&& litF 1 = _
       rw [not_maskOf]; rfl)

theorem rel_lane64 (b : Build64) (P : Platform 64) (r : Rel) (x y : BitVec 64)
    (h : (b.isAvx && r.isGreater) = false ∨ (Num binary64 x ∧ Num binary64 y)) :
    r.op.f (b.lane P) x y = if r.test binary64 x y then 0x3ff0000000000000#64 else 0#64 := by
  have h1 := dbl_one
  cases b with
  | generic =>
    change r.op.f (Build64.scalar P) x y = _
    rw [rel_scalar64, Scalar.ofBool, one64, binary64.posZero_eq]
  | sse2 s f =>
    cases r <;>
    · refine Eq.trans ?_ (maskOf_and _ _)
      rw [← h1]; rfl
  | avx f =>
    have hg : r = .greater ∨ r = .greaterEqual → Num binary64 x ∧ Num binary64 y := by
      rintro (rfl | rfl) <;> exact h.resolve_left (by simp [Build64.isAvx, Rel.isGreater])
    cases r <;>
    first
    | (refine Eq.trans ?_ (maskOf_and _ _)
       rw [← h1]; rfl)
    | (obtain ⟨hx, hy⟩ := hg (by simp)
       refine Eq.trans ?_ (maskOf_and _ _)
       rw [← h1]
       change maskOf (!_) &&& binary64.ofRat 1 = _
       congr 2
       simp only [Rel.test, Platform.x86, Hw.ieee]
       rw [binary64.ltb_of_num ‹_› ‹_›, binary64.leb_of_num ‹_› ‹_›]
       rw [← decide_not, decide_eq_decide]; omega)

/-! ## sign -/

/-- `vec_sign` on a class with the usual masks. -/
theorem vecSign_eq {w : Nat} (F : Fmt w) (V : LaneOps w) (one : BitVec w) (hs : V.signMask = F.signBit)
    (h1 : V.one = one) (hz : V.zero = F.posZero) (hneg : F.neg one = false)
    (hm : ∀ x y, V.maskNeq x y = maskOf (!F.eqb x y)) (x : BitVec w) :
    vecSign V x = F.pack (F.neg x) (if F.eqb x F.posZero then 0 else F.code one) := by
  unfold vecSign
  simp only []
  rw [hs, h1, hz, hm, maskOf_and]
  have hc := F.code_lt one
  have h0 : 0 < 2 ^ (w - 1) := Nat.two_pow_pos _
  cases h : F.eqb x F.posZero
  · apply F.ext
    · rw [F.neg_or_sign]; simp [hneg, F.neg_pack _ hc]
    · rw [F.code_or_sign]; simp [F.code_pack _ hc]
  · apply F.ext
    · rw [F.neg_or_sign]; rw [← F.posZero_eq]; simp [F.neg_pack _ h0]
    · rw [F.code_or_sign]; rw [← F.posZero_eq]; simp [F.code_pack _ h0]

theorem sign_lane32 (b : Build32) (hb : b ≠ .generic) (P : Platform 32) (x : BitVec 32) :
    (b.lane P).sign x
      = binary32.pack (binary32.neg x) (if binary32.eqb x binary32.posZero then 0 else 0x3f800000) := by
  have hn : binary32.neg 0x3f800000#32 = false := by decide
  have hc : binary32.code 0x3f800000#32 = 0x3f800000 := by decide
  cases b with
  | generic => exact absurd rfl hb
  | sse s f =>
    exact vecSign_eq binary32 (Sse.ops f (P.x86 binary32)) 0x3f800000#32 ((sse_signMask _ P).trans signBit32.symm)
      (sse_one _ P) binary32.posZero_eq.symm hn (fun _ _ => rfl) x
  | avx f =>
    exact vecSign_eq binary32 (AvxF.ops f (P.x86 binary32)) 0x3f800000#32 signBit32.symm litF_one binary32.posZero_eq.symm hn
      (fun _ _ => rfl) x
  | neon =>
    exact vecSign_eq binary32 (Neon.ops (P.arm binary32)) 0x3f800000#32 signBit32.symm litF_one binary32.posZero_eq.symm hn
      (fun _ _ => not_maskOf _) x
  | altivec =>
    exact vecSign_eq binary32 (Altivec.ops (P.arm binary32)) 0x3f800000#32 signBit32.symm litF_one binary32.posZero_eq.symm hn
      (fun _ _ => not_maskOf _) x

theorem sign_lane64 (b : Build64) (hb : b ≠ .generic) (P : Platform 64) (x : BitVec 64) :
    (b.lane P).sign x = binary64.pack (binary64.neg x)
      (if binary64.eqb x binary64.posZero then 0 else 0x3ff0000000000000) := by
  have hn : binary64.neg 0x3ff0000000000000#64 = false := by decide
  cases b with
  | generic => exact absurd rfl hb
  | sse2 s f =>
    exact vecSign_eq binary64 (Dbl.ops ⟨false, s, f⟩ (P.x86 binary64)) 0x3ff0000000000000#64 ((dbl_signMask false).trans signBit64.symm)
      dbl_one binary64.posZero_eq.symm hn (fun _ _ => rfl) x
  | avx f =>
    exact vecSign_eq binary64 (Dbl.ops ⟨true, true, f⟩ (P.x86 binary64)) 0x3ff0000000000000#64 ((dbl_signMask true).trans signBit64.symm)
      dbl_one binary64.posZero_eq.symm hn (fun _ _ => rfl) x

/-- The scalar `sign` of a number. -/
theorem sign_scalar {w : Nat} (F : Fmt w) {x : BitVec w} (h : F.isNaN x = false) :
    Scalar.sign F x = if 0 < F.key x then F.ofInt 1 else if F.key x = 0 then F.posZero
      else F.ofInt (-1) := by
  unfold Scalar.sign
  rw [F.ltb_of_num F.isNaN_posZero h, F.eqb_of_num h F.isNaN_posZero, F.key_posZero]
  simp [Fmt.ofInt]

/-- `vec_sign` of a number. -/
theorem sign_pack {w : Nat} (F : Fmt w) {x : BitVec w} (h : F.isNaN x = false) {one : Nat} :
    F.pack (F.neg x) (if F.eqb x F.posZero then 0 else one)
      = if 0 < F.key x then F.pack false one else if F.key x = 0 then x else F.pack true one := by
  rw [F.eqb_of_num h F.isNaN_posZero, F.key_posZero]
  have hp := F.pack_self x
  by_cases h0 : F.key x = 0
  · have hc := F.key_eq_zero.mp h0
    rw [hc] at hp
    simp [h0, hp]
  · cases hn : F.neg x
    · have : 0 < F.key x := by rw [F.key_nonneg hn] at *; omega
      simp [h0, this]
    · have : ¬ 0 < F.key x := by rw [F.key_neg hn] at *; omega
      simp [h0, this]

/-! ## undenormalize -/

/-- `min()` in terms of codes -/
theorem lt_minPositive {w : Nat} (F : Fmt w) {x : BitVec w} (h : F.neg x = false) :
    F.ltb x (Scalar.minPositive F) = decide (F.code x < 2 ^ F.mb) := by
  have hlt : 2 ^ F.mb < 2 ^ (w - 1) := lt_trans F.pow_mb_lt_infCode F.infCode_lt
  have hc : F.code (Scalar.minPositive F) = 2 ^ F.mb := F.code_pack _ hlt
  have hn : F.neg (Scalar.minPositive F) = false := F.neg_pack _ hlt
  have hq : F.isNaN (Scalar.minPositive F) = false := by
    have := F.pow_mb_lt_infCode
    simp only [Fmt.isNaN, hc, decide_eq_false_iff_not]; omega
  rw [Bool.eq_iff_iff, F.ltb_iff, F.key_nonneg h, F.key_nonneg hn, hc]
  have := F.pow_mb_lt_infCode
  rw [hq]
  generalize 2 ^ F.mb = M at *
  simp [Fmt.isNaN]
  omega

/-- `detail::undenormalize`: zero for zeros and subnormals, the argument otherwise. -/
theorem undenormalize_scalar {w : Nat} (F : Fmt w) (x : BitVec w) :
    Scalar.undenormalize F x = if F.code x < 2 ^ F.mb then F.posZero else x := by
  have hlt : 2 ^ F.mb < 2 ^ (w - 1) := lt_trans F.pow_mb_lt_infCode F.infCode_lt
  have hi := F.pow_mb_lt_infCode
  have hp : 0 < 2 ^ F.mb := Nat.two_pow_pos _
  have hc : F.code (Scalar.minPositive F) = 2 ^ F.mb := F.code_pack _ hlt
  have hn : F.neg (Scalar.minPositive F) = false := F.neg_pack _ hlt
  have hk : F.key (F.negate (Scalar.minPositive F)) = -(2 ^ F.mb : Nat) := by
    rw [F.key_negate, F.key_nonneg hn, hc]
  have hq : F.isNaN (F.negate (Scalar.minPositive F)) = false := by
    simp only [Fmt.isNaN, F.code_negate, hc, decide_eq_false_iff_not]; omega
  unfold Scalar.undenormalize
  have hlm := fun h => lt_minPositive F (x := x) h
  generalize 2 ^ F.mb = M at *
  cases hs : F.neg x
  · rw [hlm hs]
    have h2 : F.ltb F.posZero x = true ↔ F.isNaN x = false ∧ F.code x ≠ 0 := by
      rw [F.ltb_iff, F.key_nonneg hs]; simp; omega
    by_cases h0 : F.ltb F.posZero x = true
    · rw [if_pos h0]; simp
    · rw [if_neg h0]
      have h3 : F.ltb (F.negate (Scalar.minPositive F)) x = true ↔ F.isNaN x = false := by
        rw [F.ltb_iff, hk, F.key_nonneg hs, hq]; simp only [true_and]; exact ⟨fun h => h.1, fun h => ⟨h, by omega⟩⟩
      by_cases h4 : F.isNaN x = true
      · have : ¬ F.code x < M := by simp [Fmt.isNaN] at h4; omega
        rw [if_neg this, if_neg]; rw [h3]; simp [h4]
      · have h4' : F.isNaN x = false := by simpa using h4
        have : F.code x = 0 := by
          by_contra hne; exact h0 (h2.mpr ⟨h4', hne⟩)
        rw [if_pos (h3.mpr h4'), if_pos (by omega)]
  · have h2 : ¬ F.ltb F.posZero x = true := by
      rw [F.ltb_iff, F.key_neg hs]; simp
    rw [if_neg h2]
    have h3 : F.ltb (F.negate (Scalar.minPositive F)) x = true ↔ F.code x < M := by
      rw [F.ltb_iff, hk, F.key_neg hs, hq]; simp only [Fmt.isNaN, decide_eq_false_iff_not, true_and]; omega
    by_cases h4 : F.code x < M
    · rw [if_pos (h3.mpr h4), if_pos h4]
    · rw [if_neg (fun h => h4 (h3.mp h)), if_neg h4]

/-- `vec_undenormalize` on a class whose masks and `select` work. -/
theorem vecUndenormalize_eq {w : Nat} (F : Fmt w) (V : LaneOps w) (ha : ∀ x, V.abs x = F.fabs x)
    (hm : ∀ x y, V.maskLt x y = maskOf (F.ltb x y)) (hz : V.zero = F.posZero)
    (hsel : ∀ a b c, V.select a b (maskOf c) = if c then b else a) (x : BitVec w) :
    vecUndenormalize V (Scalar.minPositive F) x = if F.code x < 2 ^ F.mb then F.posZero else x := by
  unfold vecUndenormalize
  simp only [ha, hm, hsel, hz]
  rw [lt_minPositive F (F.neg_fabs x), F.code_fabs]
  simp

/-- The builds that have `undenormalize`. -/
def Build32.hasUndenormalize : Build32 → Bool
  | .neon => false
  | .altivec => false
  | _ => true

theorem undenormalize_lane32 (b : Build32) (hb : b.hasUndenormalize = true) (P : Platform 32)
    (x : BitVec 32) :
    (b.lane P).undenormalize x = if binary32.code x < 2 ^ 23 then 0#32 else x := by
  rw [← binary32.posZero_eq]
  cases b with
  | generic => exact undenormalize_scalar binary32 x
  | sse s f =>
    exact vecUndenormalize_eq binary32 (Sse.ops f (P.x86 binary32)) (fun x => abs_lane32 (.sse s f) P x) (fun _ _ => rfl)
      binary32.posZero_eq.symm (fun a b c => sse_select _ a b c) x
  | avx f =>
    exact vecUndenormalize_eq binary32 (AvxF.ops f (P.x86 binary32)) (fun x => abs_lane32 (.avx f) P x) (fun _ _ => rfl)
      binary32.posZero_eq.symm (fun a b c => sse_select true a b c) x
  | neon => exact absurd hb (by decide)
  | altivec => exact absurd hb (by decide)

theorem undenormalize_lane64 (b : Build64) (P : Platform 64) (x : BitVec 64) :
    (b.lane P).undenormalize x = if binary64.code x < 2 ^ 52 then 0#64 else x := by
  rw [← binary64.posZero_eq]
  cases b with
  | generic => exact undenormalize_scalar binary64 x
  | sse2 s f =>
    exact vecUndenormalize_eq binary64 (Dbl.ops ⟨false, s, f⟩ (P.x86 binary64)) (fun x => abs_lane64 (.sse2 s f) P x) (fun _ _ => rfl)
      binary64.posZero_eq.symm (fun a b c => dbl_select _ _ a b c) x
  | avx f =>
    exact vecUndenormalize_eq binary64 (Dbl.ops ⟨true, true, f⟩ (P.x86 binary64)) (fun x => abs_lane64 (.avx f) P x) (fun _ _ => rfl)
      binary64.posZero_eq.symm (fun a b c => dbl_select _ _ a b c) x

end Nova
