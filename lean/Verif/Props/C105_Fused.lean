import Verif.SpecSpecial
import Verif.Lemmas.ContractNaN
import Verif.Lemmas.ContractSymmetry
import Verif.Props.C85_NaN
import Verif.Props.C88_Polarity
import Verif.Props.C99_Contract

/-!
# C105: Symmetries, NaNs and special values survive fused operations

`Contract.unary` lists the results of a function, one for each choice of the products that are fused into sums, in an
order which does not depend on the argument.
-/

namespace Nova
open FP Spec VecMath

/-- Two results of a function, one the negative of the other. -/
def OppositeResults (r s : Except Fault (BitVec 32)) : Prop :=
  ∃ a b, r = .ok a ∧ s = .ok b ∧ Opposite binary32 a b

section
attribute [local irreducible] litD litF litD32 Fmt.add Fmt.mul Fmt.div Fmt.sub Fmt.fma Fmt.ltb Fmt.leb Fmt.eqb
  Fmt.roundInt Fmt.toInt32 Fmt.ofInt32 Fmt.sqrt

theorem opposite_results {l l' : List (BitVec 32)} (h : List.Forall₂ (Opposite binary32) l l') :
    List.Forall₂ OppositeResults (l.map .ok) (l'.map .ok) :=
  forall₂_map_of h fun _ _ _ hab => ⟨_, _, rfl, rfl, hab⟩

/-- The odd functions: for every choice of fused products, the result for the negated argument is the negated result. -/
theorem C105_odd (c : Bool) (b : Build32) (hb : b.simdMath = true) (P : Platform 32) (op : UnOp) (x : BitVec 32)
    (hx : IsFin binary32 x) (hr : UnOdd b P.c99 op (binary32.toReal x)) :
    List.Forall₂ OppositeResults (Contract.unary c (b.ops P) (b.lane P) P.r2 P.r10 op x)
      (Contract.unary c (b.ops P) (b.lane P) P.r2 P.r10 op (binary32.negate x)) := by
  have T := b.templates hb P
  have h := T.ieee
  have hV := T.x86
  have hm : (b.ops P).Masks := ⟨h.sign, h.abs⟩
  have other : ∀ {l l'}, l = [op.f (b.lane P) x] → l' = [op.f (b.lane P) (binary32.negate x)] →
      List.Forall₂ OppositeResults l l' := by
    rintro _ _ rfl rfl
    exact .cons (C88_odd_float b P (fun h => absurd hb (by rw [h]; decide)) op x hx hr) .nil
  cases op with
  | sin => exact opposite_results (Contract.opposites_of_map (Contract.vecSin_flip hm x))
  | tan => exact opposite_results (Contract.opposites_of_map (Contract.vecTan_flip hm x))
  | atan => exact opposite_results (Contract.opposites_of_map (Contract.vecAtan_flip hm x))
  | asin => exact opposite_results (Contract.vecAsin_flip h hx)
  | tanh => exact opposite_results (Contract.vecTanh_flip h hV hx)
  | reciprocal => cases b <;> first | exact absurd hb (by decide) | cases hr
  | cos | acos | log | log2 | log10 | exp | midi2freq | freq2midi | midi2ratio | ratio2midi | oct2freq | freq2oct | amp2db
  | db2amp => exact hr.elim
  | _ => exact other rfl rfl

/-- A subnormal number and a large one. -/
example (P : Platform 32) : IsFin binary32 0x00000001#32 ∧ IsFin binary32 0xff7fffff#32 ∧ (Build32.avx true).simdMath = true ∧
    UnOdd (.avx true) P.c99 .sin (binary32.toReal 0xff7fffff#32) ∧ UnOdd (.avx true) P.c99 .tanh (binary32.toReal 0x00000001#32) :=
  ⟨by decide, by decide, rfl, trivial, trivial⟩

/-- The even functions. -/
theorem C105_even (c : Bool) (b : Build32) (hb : b.simdMath = true) (P : Platform 32) (op : UnOp) (x : BitVec 32)
    (hx : IsFin binary32 x) (hr : UnEven op = true) :
    Contract.unary c (b.ops P) (b.lane P) P.r2 P.r10 op (binary32.negate x) =
      Contract.unary c (b.ops P) (b.lane P) P.r2 P.r10 op x := by
  have T := b.templates hb P
  have h := T.ieee
  have hm : (b.ops P).Masks := ⟨h.sign, h.abs⟩
  have hb' : multiplies b = true := by cases b <;> first | exact absurd hb (by decide) | rfl
  have ha : (b.lane P).abs (binary32.negate x) = (b.lane P).abs x := by
    rw [abs_lane32, abs_lane32, binary32.fabs_negate]
  have hl : IsFin binary32 ((b.lane P).lit 0.0022727272727) := by
    rw [lane_lit_s b P]
    exact (show binary32.isFinite (litD32 0.0022727272727) = true by decide +kernel)
  have hlog : (b.lane P).abs ((b.lane P).mul (binary32.negate x) ((b.lane P).lit 0.0022727272727)) =
      (b.lane P).abs ((b.lane P).mul x ((b.lane P).lit 0.0022727272727)) := by
    rw [lane_mul32' b hb', abs_lane32, abs_lane32, fabs_mul_negate hx hl]
  have other : ∀ {l l'}, l = [op.f (b.lane P) (binary32.negate x)] → l' = [op.f (b.lane P) x] → l = l' := by
    rintro _ _ rfl rfl
    rw [C88_even_float b P (fun h => absurd hb (by rw [h]; decide)) op x hx hr (.inl hb')]
  cases op with
  | cos => exact congrArg (List.map Except.ok) (Contract.vecCos_flip hm x)
  | freq2midi => unfold Contract.unary Contract.absLog2; dsimp only; rw [hlog]
  | freq2oct => unfold Contract.unary Contract.absLog2; dsimp only; rw [hlog]
  | amp2db => unfold Contract.unary; dsimp only; rw [ha]
  | abs => exact other rfl rfl
  | square => exact other rfl rfl
  | _ => exact absurd hr (by decide)

/-- The signed power is odd in its base. -/
theorem C105_spow (c : Bool) (b : Build32) (hb : b.simdMath = true) (P : Platform 32) (x y : BitVec 32)
    (hx : IsFin binary32 x) (hy : IsFin binary32 y) :
    Contract.binary c (b.ops P) (b.lane P) .spow (binary32.negate x) y =
      (Contract.binary c (b.ops P) (b.lane P) .spow x y).map binary32.negate := by
  have T := b.templates hb P
  have h := T.ieee
  have e : ∀ z : BitVec 32, z ^^^ signBit (binary32.neg z) = binary32.fabs z := fun z => by
    rw [← sign_and]; exact binary32.xor_sign z
  unfold Contract.binary Contract.vecSignedPow
  dsimp only
  rw [h.sign, sign_and, sign_and, e, e, binary32.fabs_negate, List.map_map]
  refine List.map_congr_left fun r hr => ?_
  have hn := Contract.vecPow_sign T.ieee T.x86 (x := binary32.fabs x) (by unfold IsFin; rw [binary32.isFinite_fabs]; exact hx)
      (by rw [binary32.toReal_fabs]; exact abs_nonneg _) hy r hr
  rw [Function.comp, BitVec.or_comm, or_signBit hn, BitVec.or_comm, or_signBit hn, binary32.neg_negate, negate32]
  cases binary32.neg x
  · simp [signBit]
  · simp [signBit, BitVec.xor_assoc]

/-- A NaN in the argument is a NaN in the result, with the exceptions of the table of C85. -/
theorem C105_nan_partial (c : Bool) (b : Build32) (hb : b.simdMath = true) (P : Platform 32) (hM : P.M.KeepsNaN binary32)
    (op : UnOp) (hop : UnKeepsNaN b op = true) {x : BitVec 32} (hx : binary32.isNaN x = true) :
    ∀ r ∈ Contract.unary c (b.ops P) (b.lane P) P.r2 P.r10 op x, ∃ y, r = .ok y ∧ binary32.isNaN y = true := by
  have T := b.templates hb P
  have h := T.ieee
  have K := keeps_float b P
  have hlit := lane_lit32 b P
  have ho : ownMath b = true := by cases b <;> first | exact absurd hb (by decide) | exact hb
  have un : ∀ {l : List (BitVec 32)}, (∀ y ∈ l, binary32.N y) →
      ∀ r ∈ l.map Except.ok, ∃ y, r = (Except.ok y : Except Fault _) ∧ binary32.isNaN y = true := by
    intro l hl r hr
    obtain ⟨y, hy, rfl⟩ := List.mem_map.mp hr
    exact ⟨y, rfl, hl y hy⟩
  have hna : ∀ op', (op' = UnOp.asin ∨ op' = .acos ∨ op' = .tanh ∨ op' = .exp ∨ op' = .midi2freq ∨ op' = .midi2ratio ∨
      op' = .oct2freq ∨ op' = .db2amp) → UnKeepsNaN b op' = true → b.isAvx = false := by
    intro op' h1 h2
    cases b with
    | avx f => rcases h1 with h | h | h | h | h | h | h | h <;> subst h <;> exact (Bool.false_ne_true h2).elim
    | _ => rfl
  have hS := fun ha => sse_ops b ho ha P
  have other : ∀ r ∈ [op.f (b.lane P) x], ∃ y, r = .ok y ∧ binary32.isNaN y = true := by
    intro r hr
    rw [List.mem_singleton.mp hr]
    exact C85_unary_float_partial b P hM op hop hx
  have hno : ∀ op', (op' = UnOp.log ∨ op' = .log2 ∨ op' = .log10 ∨ op' = .freq2midi ∨ op' = .ratio2midi ∨
      op' = .freq2oct ∨ op' = .amp2db) → UnKeepsNaN b op' = true → False := by
    intro op' h1 h2
    rcases h1 with h | h | h | h | h | h | h <;> subst h <;> simp [UnKeepsNaN, ho] at h2
  cases op with
  | reciprocal =>
    refine un fun y hy => ?_
    unfold Contract.vecReciprocalNewton at hy
    dsimp only at hy
    obtain ⟨d, hd, hy⟩ := List.mem_flatMap.mp hy
    have hd := Contract.sub_nan (.inr (Contract.prod_nan_r hx)) d hd
    rcases Contract.madd_cases b hb P hy with rfl | rfl
    · exact Fmt.N.fma_1 hd
    · exact hd.mul_l.add_l
  | sin => exact un (Contract.vecSin_nan h hx)
  | cos => exact un (Contract.vecCos_nan h hx)
  | tan => exact un (Contract.vecTan_nan h hx)
  | atan => exact un (Contract.vecAtan_nan h (gt_mask b ho P) hx)
  | asin => exact un (Contract.vecAsin_nan h (hS (hna .asin (by simp) hop)).2 hx)
  | acos => exact un (Contract.vecAcos_nan h (hS (hna .acos (by simp) hop)).2 hx)
  | tanh => exact un (Contract.vecTanh_nan (hS (hna .tanh (by simp) hop)).1 (hS (hna .tanh (by simp) hop)).2 hx)
  | exp =>
    exact un (Contract.vecExp_nan (hS (hna .exp (by simp) hop)).1 (hS (hna .exp (by simp) hop)).2 (Contract.reg_nan hx))
  | log => exact (hno .log (by simp) hop).elim
  | log2 => exact (hno .log2 (by simp) hop).elim
  | log10 => exact (hno .log10 (by simp) hop).elim
  | freq2midi => exact (hno .freq2midi (by simp) hop).elim
  | ratio2midi => exact (hno .ratio2midi (by simp) hop).elim
  | freq2oct => exact (hno .freq2oct (by simp) hop).elim
  | amp2db => exact (hno .amp2db (by simp) hop).elim
  | midi2freq =>
    have S := hS (hna .midi2freq (by simp) hop)
    unfold Contract.unary; dsimp only
    intro r hr
    obtain ⟨p, hp, rfl⟩ := List.mem_map.mp hr
    rw [hlit] at hp
    exact ⟨_, rfl, K.mul _ _ (.inr (Contract.vecPow_nan S.1 S.2 two_base.2 (K.mul _ _ (.inl (K.sub _ _ (.inl hx)))) p hp))⟩
  | midi2ratio =>
    have S := hS (hna .midi2ratio (by simp) hop)
    unfold Contract.unary; dsimp only
    rw [hlit]
    exact un (Contract.vecPow_nan S.1 S.2 two_base.2 (K.mul _ _ (.inl hx)))
  | oct2freq =>
    have S := hS (hna .oct2freq (by simp) hop)
    unfold Contract.unary; dsimp only
    intro r hr
    obtain ⟨p, hp, rfl⟩ := List.mem_map.mp hr
    rw [hlit] at hp
    exact ⟨_, rfl, K.mul _ _ (.inr (Contract.vecPow_nan S.1 S.2 two_base.2 (K.sub _ _ (.inl hx)) p hp))⟩
  | db2amp =>
    have S := hS (hna .db2amp (by simp) hop)
    unfold Contract.unary; dsimp only
    rw [hlit]
    exact un (Contract.vecPow_nan S.1 S.2 ten_base.2 (K.mul _ _ (.inl hx)))
  | _ => exact other

/-- The sum of a constant and a product which is zero. -/
theorem add_still {k z p : BitVec 32} (k' : BitVec 32) (h1 : binary32.add k (binary32.mul z p) = k') (h2 : binary32.fma z p k = k') {c : Bool}
    {r : BitVec 32} (hr : r ∈ Contract.add c (.reg k) (.prod z p)) : r = k' := by
  rcases mem_sums hr with rfl | ⟨-, x, y, e, -⟩ | ⟨-, x, y, e, rfl⟩
  · exact h1
  · cases e
  · cases e; exact h2

theorem vecAtan_inf_value {c : Bool} {V : LaneOps 32} (h : V.Ieee) (s : Bool) :
    ∀ r ∈ Contract.vecAtan c V (0x7f800000#32 ||| signBit s), r = 0x3fc90fdb#32 ||| signBit s := by
  intro r hr
  have e0 : binary32.neg (0x7f800000#32 ||| signBit s) = s := by cases s <;> decide
  have e1 : binary32.fabs (0x7f800000#32 ||| signBit s) = 0x7f800000#32 := by cases s <;> decide
  unfold Contract.vecAtan at hr
  dsimp only at hr
  simp only [List.mem_map] at hr
  obtain ⟨t, ht, rfl⟩ := hr
  rw [abs_and h, e1] at ht
  rw [h.sign, sign_and, e0]
  suffices t = 0x3fc90fdb#32 by subst this; cases s <;> decide
  unfold Contract.atanAbs at ht
  dsimp only at ht
  simp only [List.mem_flatMap] at ht
  rw [h.gt _ _ (by decide +kernel) (by decide +kernel), h.gt _ _ (by decide +kernel) (by decide +kernel),
    h.sel, h.sel, h.sel, h.sel, if_pos (by decide +kernel), if_pos (by decide +kernel), if_pos (by decide +kernel),
    if_pos (by decide +kernel), h.div, h.neg, h.one, h.add,
    show binary32.div (binary32.negate 0x3f800000#32) 0x7f800000#32 = 0x80000000#32 by decide +kernel,
    show binary32.mul 0x80000000#32 0x80000000#32 = 0#32 by decide +kernel,
    show binary32.mul 0x80000000#32 0#32 = 0x80000000#32 by decide +kernel] at ht
  obtain ⟨p, hp, ht⟩ := ht
  unfold Contract.atanInner at hp
  simp only [List.mem_flatMap] at hp
  obtain ⟨p1, h1, p2, h2, hp⟩ := hp
  rw [add_still (litD (-0.1387787759304046630859375)) (by decide +kernel) (by decide +kernel) h1] at h2
  rw [add_still (litD 0.19977732002735137939453125) (by decide +kernel) (by decide +kernel) h2] at hp
  rw [add_still (litD (-0.333329498767852783203125)) (by decide +kernel) (by decide +kernel) hp] at ht
  exact add_still _ (by decide +kernel) (by decide +kernel) ht

/-- The results at the ends of the domains. -/
theorem C105_special (c : Bool) (b : Build32) (hb : b.simdMath = true) (P : Platform 32) (op : UnOp) (x y : BitVec 32)
    (hx : Num binary32 x) (hy : UnSpecial x op = some y) :
    ∀ r ∈ Contract.unary c (b.ops P) (b.lane P) P.r2 P.r10 op x, r = .ok y := by
  have h := (b.templates hb P).ieee
  have un : ∀ {l : List (BitVec 32)}, (∀ z ∈ l, z = y) → ∀ r ∈ l.map Except.ok, r = (Except.ok y : Except Fault _) := by
    intro l hl r hr
    obtain ⟨z, hz, rfl⟩ := List.mem_map.mp hr
    rw [hl z hz]
  cases op with
  | exp =>
    refine un fun z hz => ?_
    unfold UnSpecial at hy
    dsimp only at hy
    rcases Contract.vecExp_cases h (a := .reg x) hx z hz with ⟨h1, rfl⟩ | ⟨h1, h2, rfl⟩ | ⟨h1, h2, -⟩
    · change binary32.ltb x _ = true at h1
      rw [if_pos h1] at hy; exact Option.some.inj hy
    · change binary32.ltb x _ = false at h1
      change binary32.ltb _ x = true at h2
      rw [h1, if_neg (by decide), if_pos h2] at hy; exact Option.some.inj hy
    · change binary32.ltb x _ = false at h1
      change binary32.ltb _ x = false at h2
      rw [h1, h2, if_neg (by decide), if_neg (by decide)] at hy; cases hy
  | asin =>
    refine un fun z hz => ?_
    unfold UnSpecial at hy
    dsimp only at hy
    split at hy
    · next hd => rw [Contract.vecAsin_outside h hx hd z hz]; exact Option.some.inj hy
    · cases hy
  | acos =>
    refine un fun z hz => ?_
    unfold UnSpecial at hy
    dsimp only at hy
    split at hy
    · next hd => rw [Contract.vecAcos_outside h hx hd z hz]; exact Option.some.inj hy
    · cases hy
  | atan =>
    refine un fun z hz => ?_
    unfold UnSpecial at hy
    dsimp only at hy
    split at hy
    · next hd =>
      subst hd
      rw [vecAtan_inf_value h false z hz, ← Option.some.inj hy]; decide
    · split at hy
      · next hd =>
        subst hd
        rw [vecAtan_inf_value h true z hz, ← Option.some.inj hy]; decide
      · cases hy
  | tanh =>
    refine un fun z hz => ?_
    unfold UnSpecial at hy
    dsimp only at hy
    split at hy
    · next hd =>
      subst hd
      rw [Contract.vecTanh_inf h false z hz, ← Option.some.inj hy]; decide
    · split at hy
      · next hd =>
        subst hd
        rw [Contract.vecTanh_inf h true z hz, ← Option.some.inj hy]; decide
      · cases hy
  | _ => cases hy

theorem pow_of_zero {c : Bool} {V : LaneOps 32} (h : V.Ieee) {x : BitVec 32} (y : BitVec 32)
    (hx : x = 0#32 ∨ x = 0x80000000#32) : ∀ r ∈ Contract.vecPow c V x y, r = 0#32 := by
  intro r hr
  unfold Contract.vecPow at hr
  dsimp only at hr
  simp only [List.mem_flatMap, List.mem_map] at hr
  obtain ⟨l, hl, s, hs, rfl⟩ := hr
  have he : binary32.eqb x 0#32 = true := by rcases hx with e | e <;> rw [e] <;> decide +kernel
  rw [h.eq, h.zero, he, h.sel, if_pos rfl]

theorem fabs_zero {x : BitVec 32} (hd : x = 0#32 ∨ x = 0x80000000#32) :
    binary32.fabs x = 0#32 ∨ binary32.fabs x = 0x80000000#32 := by
  rcases hd with e | e <;> rw [e] <;> decide

/-- The powers of zero, whatever the exponent (zero, an infinity or a NaN included). -/
theorem C105_power_of_zero (c : Bool) (b : Build32) (hb : b.simdMath = true) (P : Platform 32) (op : BinOp) (x y z : BitVec 32)
    (hz : BinSpecial x op = some z) : ∀ r ∈ Contract.binary c (b.ops P) (b.lane P) op x y, r = z := by
  intro r hr
  have h := (b.templates hb P).ieee
  cases op with
  | pow =>
    unfold BinSpecial at hz
    dsimp only at hz
    split at hz
    · next hd => rw [pow_of_zero h y hd r hr]; exact Option.some.inj hz
    · cases hz
  | spow =>
    unfold BinSpecial at hz
    dsimp only at hz
    split at hz
    · next hd =>
      obtain ⟨s, hs, rfl⟩ := Contract.vecSignedPow_eq h hr
      rw [pow_of_zero h y (fabs_zero hd) s hs, ← Option.some.inj hz]
      rcases hd with e | e <;> rw [e] <;> decide
    · cases hz
  | _ => cases hz

/-- An overflow, an argument outside the domain, and powers of zeros. -/
example : UnSpecial 0x7f800000#32 .exp = some 0x7f7fffff#32 ∧ UnSpecial 0xc0000000#32 .acos = some 0#32 ∧
    UnSpecial 0xff800000#32 .atan = some 0xbfc90fdb#32 ∧ BinSpecial 0x80000000#32 .spow = some 0x80000000#32 ∧
    UnKeepsNaN (.avx true) .atan = true ∧ binary32.isNaN 0x7fc00000#32 = true := by
  decide +kernel

/-- A function evaluated with one choice of fused products. -/
def OneChoice (L : BitVec 32 → List (Except Fault (BitVec 32))) (f : BitVec 32 → Except Fault (BitVec 32)) : Prop :=
  ∃ i : Nat, ∀ x, (L x)[i]? = some (f x)

theorem OneChoice.mem {L f} (h : OneChoice L f) (x : BitVec 32) : f x ∈ L x := by
  obtain ⟨i, h⟩ := h
  exact List.mem_of_getElem? (h x)

theorem forall₂_getElem {α β : Type} {R : α → β → Prop} {l : List α} {l' : List β} (h : List.Forall₂ R l l') (i : Nat) {a : α} {b : β}
    (ha : l[i]? = some a) (hb : l'[i]? = some b) : R a b := by
  induction h generalizing i with
  | nil => cases ha
  | cons h _ ih =>
    cases i with
    | zero =>
      rw [List.getElem?_cons_zero] at ha hb
      cases ha; cases hb; exact h
    | succ i =>
      rw [List.getElem?_cons_succ] at ha hb
      exact ih i ha hb

/-- There are such choices: the first one, and without contraction the function as it is written. -/
theorem oneChoice_first (c : Bool) (b : Build32) (hb : b.simdMath = true) (P : Platform 32) (op : UnOp) :
    OneChoice (Contract.unary c (b.ops P) (b.lane P) P.r2 P.r10 op)
      (fun x => (Contract.unary c (b.ops P) (b.lane P) P.r2 P.r10 op x)[0]?.getD (.error .uninit)) := by
  refine ⟨0, fun x => ?_⟩
  have := C99_possible_unary c b hb P op x
  dsimp only
  revert this
  generalize Contract.unary c (b.ops P) (b.lane P) P.r2 P.r10 op x = L
  intro this
  cases L with
  | nil => cases this
  | cons a l => rfl

theorem oneChoice_lane (b : Build32) (hb : b.simdMath = true) (P : Platform 32) (op : UnOp) :
    OneChoice (Contract.unary false (b.ops P) (b.lane P) P.r2 P.r10 op) (op.f (b.lane P)) := by
  refine ⟨0, fun x => ?_⟩
  rw [C99_off_unary b hb P op x]; rfl

/-- `f_vec_simd(out, in, n)` for an odd function, whichever products the compiler fuses: the call on the negated input writes
the negated output. -/
theorem C105_odd_calls (c : Bool) (b : Build32) (hb : b.simdMath = true) (P : Platform 32) (op : UnOp)
    {f : BitVec 32 → Except Fault (BitVec 32)} (hf : OneChoice (Contract.unary c (b.ops P) (b.lane P) P.r2 P.r10 op) f)
    {m m' : Mem (BitVec 32)} {out inp : Nat} {n : BitVec 32} {x : Nat → BitVec 32} (hn : 0 < n.toNat)
    (hmul : b.target.perLine ∣ n.toNat) (hoal : b.target.align ∣ out) (hial : b.target.align ∣ inp)
    (hout : Allocated m out n.toNat) (hout' : Allocated m' out n.toNat) (hin : Holds m inp n.toNat x)
    (hin' : Holds m' inp n.toNat fun i => binary32.negate (x i)) (hs : SafePlacement out inp n.toNat)
    (hx : ∀ i, i < n.toNat → IsFin binary32 (x i) ∧ UnOdd b P.c99 op (binary32.toReal (x i))) :
    ∃ y z : Nat → BitVec 32, performVecSimd1 (b.vec P) f out inp n m = .ok ((), overwrite m out n.toNat y) ∧
      performVecSimd1 (b.vec P) f out inp n m' = .ok ((), overwrite m' out n.toNat z) ∧
      ∀ i, i < n.toNat → Opposite binary32 (y i) (z i) := by
  classical
  obtain ⟨k, hk⟩ := hf
  have H : ∀ i, i < n.toNat → OppositeResults (f (x i)) (f (binary32.negate (x i))) := fun i hi =>
    forall₂_getElem (C105_odd c b hb P op (x i) (hx i hi).1 (hx i hi).2) k (hk _) (hk _)
  have total : ∃ y z : Nat → BitVec 32, ∀ i, i < n.toNat →
      f (x i) = .ok (y i) ∧ f (binary32.negate (x i)) = .ok (z i) ∧ Opposite binary32 (y i) (z i) := by
    choose y z h1 h2 h3 using H
    refine ⟨fun i => if h : i < n.toNat then y i h else 0, fun i => if h : i < n.toNat then z i h else 0, fun i h => ?_⟩
    simp only [dif_pos h]
    exact ⟨h1 i h, h2 i h, h3 i h⟩
  obtain ⟨y, z, H⟩ := total
  have hp := processed_eq b.target (b.env P) hmul
  refine ⟨y, z, ?_, ?_, fun i h => (H i h).2.2⟩
  · conv_rhs => rw [← hp]
    apply performVecSimd1_spec (b.target.lawful (b.env P)) (x := x) (perLine_le b.target (b.env P) hn hmul) hoal <;> rw [hp]
    · exact hout
    · exact ⟨hial, hin, hs⟩
    · exact fun i h => (H i h).1
  · conv_rhs => rw [← hp]
    apply performVecSimd1_spec (b.target.lawful (b.env P)) (x := fun i => binary32.negate (x i))
      (perLine_le b.target (b.env P) hn hmul) hoal <;> rw [hp]
    · exact hout'
    · exact ⟨hial, hin', hs⟩
    · exact fun i h => (H i h).2.1

/-- NaNs and special values in a call: wherever the input is a NaN the output is one, wherever it has a special value the
output has the one of the table. -/
theorem C105_special_calls_partial (c : Bool) (b : Build32) (hb : b.simdMath = true) (P : Platform 32)
    (hM : P.M.KeepsNaN binary32) (op : UnOp)
    {f : BitVec 32 → Except Fault (BitVec 32)} (hf : ∀ x, f x ∈ Contract.unary c (b.ops P) (b.lane P) P.r2 P.r10 op x)
    {m : Mem (BitVec 32)} {out inp : Nat} {n : BitVec 32} {x g : Nat → BitVec 32} (hn : 0 < n.toNat)
    (hmul : b.target.perLine ∣ n.toNat) (hoal : b.target.align ∣ out) (hial : b.target.align ∣ inp)
    (hout : Allocated m out n.toNat) (hin : Holds m inp n.toNat x) (hs : SafePlacement out inp n.toNat)
    (hg : ∀ i, i < n.toNat → f (x i) = .ok (g i)) :
    performVecSimd1 (b.vec P) f out inp n m = .ok ((), overwrite m out n.toNat g) ∧
      ∀ i, i < n.toNat → (binary32.isNaN (x i) = true → UnKeepsNaN b op = true → binary32.isNaN (g i) = true) ∧
        ∀ y, Num binary32 (x i) → UnSpecial (x i) op = some y → g i = y := by
  refine ⟨?_, fun i h => ⟨fun hx hop => ?_, fun y hx hy => ?_⟩⟩
  · have hp := processed_eq b.target (b.env P) hmul
    rw [← hp]
    apply performVecSimd1_spec (b.target.lawful (b.env P)) (x := x) (perLine_le b.target (b.env P) hn hmul) hoal <;> rw [hp]
    · exact hout
    · exact ⟨hial, hin, hs⟩
    · exact fun i h => hg i h
  · obtain ⟨y, e, hy⟩ := C105_nan_partial c b hb P hM op hop hx _ (hf (x i))
    rw [hg i h] at e
    cases e; exact hy
  · have e := C105_special c b hb P op (x i) y hx hy _ (hf (x i))
    rw [hg i h] at e
    cases e; rfl

end
end Nova
