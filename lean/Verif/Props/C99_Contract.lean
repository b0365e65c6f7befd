import Verif.Lemmas.ContractUnits
import Verif.Lemmas.ContractTan
import Verif.Props.C76_Accuracy

/-!
# C99 Products and sums which the compiler fuses

GCC compiles this library with `-ffp-contract=fast` unless it is told otherwise, also where the source calls intrinsics: a
product which is an operand of a sum or difference may be computed together with it, with one rounding.  `Contract.unary` and
its companions list, for every public function, all results which an element may have when the compiler decides separately
for each such sum.  The accuracy of C76 holds for every one of them.
-/

namespace Nova
open FP VecMath Spec

/-- The functions none of whose sums has a product as an operand. -/
theorem contract_rest (b : Build32) (hb : b.simdMath = true) (P : Platform 32) (hP : P.GoodLogs) (hrcp : P.GoodRcp)
    (op : UnOp) {x : BitVec 32} (hx : IsFin binary32 x) (hr : UnRange op (binary32.toReal x))
    {r : Except Fault (BitVec 32)} (hm : r ∈ [op.f (b.lane P) x]) :
    ∃ y, r = .ok y ∧ IsFin binary32 y ∧ UnNear op (binary32.toReal x) (binary32.toReal y) := by
  rw [List.mem_singleton] at hm
  subst hm
  exact C76_unary b hb P hP hrcp op x hx hr

theorem contract_map {l : List (BitVec 32)} {p : BitVec 32 → Prop} {r : Except Fault (BitVec 32)}
    (hm : r ∈ l.map .ok) (h : ∀ y ∈ l, p y) : ∃ y, r = .ok y ∧ p y := by
  rw [List.mem_map] at hm
  obtain ⟨y, hy, rfl⟩ := hm
  exact ⟨y, rfl, h y hy⟩

theorem contract_pitch {c : Bool} (b : Build32) (hb : b.simdMath = true) {P : Platform 32} (hP : P.GoodLogs) {x : BitVec 32}
    (hx : IsFin binary32 x) (hr : 1 / 2 ^ 100 ≤ |binary32.toReal x|) {o : Operand 32}
    (ho : o ∈ Contract.absLog2 c (b.ops P) (b.lane P) P.r2 (binary32.mul x 0x3b14f209#32)) :
    ∃ l, o = .prod l P.r2 ∧ IsFin binary32 l ∧ IsFin binary32 (binary32.mul l P.r2) ∧
      |binary32.toReal (binary32.mul l P.r2) - Real.logb 2 (|binary32.toReal x| / 440)| ≤
        1.75e-7 + 4.77e-7 * |Real.logb 2 (|binary32.toReal x| / 440)| ∧
      |binary32.toReal l * binary32.toReal P.r2 - Real.logb 2 (|binary32.toReal x| / 440)| ≤
        1.75e-7 + 4.77e-7 * |Real.logb 2 (|binary32.toReal x| / 440)| := by
  have T := b.templates hb P
  obtain ⟨n, p, H⟩ := pitch_log_of hx hr
  unfold Contract.absLog2 at ho
  rw [lane_abs32] at ho
  obtain ⟨l, rfl, f, -, f', e1, e2⟩ := Contract.log2_error T.ieee T.x86 hP n p o ho
  exact ⟨l, rfl, f, f', H _ e1, H _ e2⟩

/-- One element of a unary function. -/
theorem C99_unary (c : Bool) (b : Build32) (hb : b.simdMath = true) (P : Platform 32) (hP : P.GoodLogs) (hrcp : P.GoodRcp)
    (op : UnOp) (x : BitVec 32) (hx : IsFin binary32 x) (hr : UnRange op (binary32.toReal x)) :
    ∀ r ∈ Contract.unary c (b.ops P) (b.lane P) P.r2 P.r10 op x,
      ∃ y, r = .ok y ∧ IsFin binary32 y ∧ UnNear op (binary32.toReal x) (binary32.toReal y) := by
  intro r hm
  have T := b.templates hb P
  have hV := T.x86
  have h := T.ieee
  cases op with
  | reciprocal =>
    obtain ⟨h1, h2⟩ := hrcp x hx hr.1 hr.2
    exact contract_map hm (Contract.reciprocal_error b hb P ⟨hx, h1, hr.1, hr.2, by norm_num, h2⟩)
  | sin => exact contract_map hm fun y hy => ⟨(Contract.vecSin_track h hx hr y hy).fin, (Contract.vecSin_track h hx hr y hy).err⟩
  | cos => exact contract_map hm fun y hy => ⟨(Contract.vecCos_track h hx hr y hy).fin, (Contract.vecCos_track h hx hr y hy).err⟩
  | tan => exact contract_map hm (Contract.vecTan_error h hx hr.1 hr.2)
  | asin =>
    refine contract_map hm fun y hy => ?_
    have := Contract.vecAsin_error h hx hr y hy
    exact ⟨this.1, this.2.trans (mul_le_mul_of_nonneg_right (by norm_num) (abs_nonneg _))⟩
  | acos =>
    refine contract_map hm fun y hy => ?_
    have := Contract.vecAcos_error h hx hr.1 hr.2 y hy
    exact ⟨this.1, this.2.trans (mul_le_mul_of_nonneg_right (by norm_num) (Real.arccos_nonneg _))⟩
  | atan =>
    refine contract_map hm fun y hy => ?_
    have := Contract.vecAtan_error h hx y hy
    exact ⟨this.1, this.2.trans (mul_le_mul_of_nonneg_right (by norm_num) (abs_nonneg _))⟩
  | tanh =>
    refine contract_map hm fun y hy => ?_
    have := Contract.vecTanh_error h hV hx y hy
    exact ⟨this.1, this.2.trans (mul_le_mul_of_nonneg_right (by norm_num) (abs_nonneg _))⟩
  | log =>
    obtain ⟨n, p⟩ := normal_of_ge hx hr
    exact contract_map hm (Contract.vecLog_error h hV n (neg_of_toReal p))
  | log2 =>
    obtain ⟨n, p⟩ := normal_of_ge hx hr
    obtain ⟨o, ho, rfl⟩ := List.mem_map.mp hm
    obtain ⟨l, rfl, -, -, f, e, -⟩ := Contract.log2_error h hV hP n p o ho
    exact ⟨_, rfl, f, e⟩
  | log10 =>
    obtain ⟨n, p⟩ := normal_of_ge hx hr
    obtain ⟨o, ho, rfl⟩ := List.mem_map.mp hm
    obtain ⟨l, rfl, -, -, f, e, -⟩ := Contract.log10_error h hV hP n p o ho
    exact ⟨_, rfl, f, e⟩
  | exp => exact contract_map hm (Contract.vecExp_error h hV hx hr.1 hr.2)
  | midi2freq =>
    unfold Contract.unary at hm
    dsimp only at hm
    rw [lane_lit32, lane_mul32 b hb, lane_sub32, lit2, litTwelfth, lit440, lit69] at hm
    obtain ⟨p, hp, rfl⟩ := List.mem_map.mp hm
    exact ⟨_, rfl, midi2freq_of hx hr (Contract.powOk h hV _ _ p hp)⟩
  | midi2ratio =>
    unfold Contract.unary at hm
    dsimp only at hm
    rw [lane_lit32, lane_mul32 b hb, lit2, litTwelfth] at hm
    obtain ⟨p, hp, rfl⟩ := List.mem_map.mp hm
    exact ⟨_, rfl, midi2ratio_of hx hr (Contract.powOk h hV _ _ p hp)⟩
  | oct2freq =>
    unfold Contract.unary at hm
    dsimp only at hm
    rw [lane_lit32, lane_mul32 b hb, lane_sub32, lit2, lit440, lit475] at hm
    obtain ⟨p, hp, rfl⟩ := List.mem_map.mp hm
    exact ⟨_, rfl, oct2freq_of hx hr (Contract.powOk h hV _ _ p hp)⟩
  | db2amp =>
    unfold Contract.unary at hm
    dsimp only at hm
    rw [lane_lit32, lane_mul32 b hb, lit10, litTwentieth] at hm
    obtain ⟨p, hp, rfl⟩ := List.mem_map.mp hm
    exact ⟨_, rfl, db2amp_of hx hr (Contract.powOk h hV _ _ p hp)⟩
  | ratio2midi =>
    obtain ⟨n, p⟩ := normal_of_ge hx hr
    unfold Contract.unary at hm
    dsimp only at hm
    rw [lane_lit32, lane_mul32 b hb, lit12] at hm
    obtain ⟨o, ho, rfl⟩ := List.mem_map.mp hm
    obtain ⟨l, rfl, -, -, f, e, -⟩ := Contract.log2_error h hV hP n p o ho
    exact ⟨_, rfl, ratio2midi_of h hV n p f e⟩
  | amp2db =>
    unfold Contract.unary at hm
    dsimp only at hm
    rw [lane_lit32, lane_mul32 b hb, lit20, lane_abs32] at hm
    obtain ⟨o, ho, rfl⟩ := List.mem_map.mp hm
    change 1 / 2 ^ 126 ≤ |binary32.toReal x| at hr
    change ∃ y, _ ∧ _ ∧ |binary32.toReal y - 20 * Real.logb 10 (|binary32.toReal x|)| ≤ 5.5e-7 * |20 * Real.logb 10 (|binary32.toReal x|)|
    rw [← binary32.toReal_fabs] at hr ⊢
    have hf : IsFin binary32 (binary32.fabs x) := by unfold IsFin at hx ⊢; rw [binary32.isFinite_fabs]; exact hx
    have hpos : 0 < binary32.toReal (binary32.fabs x) := lt_of_lt_of_le (by positivity) hr
    have hn : IsNormal (binary32.fabs x) := isNormal_of_value hf (hr.trans (le_abs_self _))
    obtain ⟨l, rfl, -, -, f, e, -⟩ := Contract.log10_error h hV hP hn hpos o ho
    exact ⟨_, rfl, amp2db_of h hV hn hpos f e⟩
  | freq2midi =>
    unfold Contract.unary at hm
    dsimp only at hm
    rw [lane_lit32, lane_mul32 b hb, litPitch, lit12, lit69] at hm
    obtain ⟨o, ho, hm⟩ := List.mem_flatMap.mp hm
    obtain ⟨l, rfl, -, f, e, -⟩ := contract_pitch b hb hP hx hr ho
    have hB := pitch_size hx hr
    change r ∈ List.map _ (Contract.add c (.prod (binary32.mul l P.r2) _) _) at hm
    generalize binary32.mul l P.r2 = q at *
    obtain ⟨y, hy, rfl⟩ := List.mem_map.mp hm
    refine ⟨y, rfl, ?_⟩
    change IsFin binary32 y ∧ |binary32.toReal y - (69 + 12 * Real.logb 2 (|binary32.toReal x| / 440))| ≤ _
    rw [add_comm (69 : ℝ), mul_comm (12 : ℝ)]
    rcases mem_sums hy with rfl | ⟨-, u, v, e', rfl⟩ | ⟨-, u, v, e', -⟩
    · exact freq2midi_of f e hB
    · cases e'; exact Contract.freq2midi_fused f e hB
    · cases e'
  | freq2oct =>
    unfold Contract.unary at hm
    dsimp only at hm
    rw [lane_lit32, lane_mul32 b hb, litPitch, lit475] at hm
    obtain ⟨o, ho, hm⟩ := List.mem_flatMap.mp hm
    obtain ⟨l, rfl, f0, f, e, e2⟩ := contract_pitch b hb hP hx hr ho
    have hB := pitch_size hx hr
    obtain ⟨y, hy, rfl⟩ := List.mem_map.mp hm
    refine ⟨y, rfl, ?_⟩
    change IsFin binary32 y ∧ |binary32.toReal y - (4.75 + Real.logb 2 (|binary32.toReal x| / 440))| ≤ _
    rw [add_comm (4.75 : ℝ)]
    rcases mem_sums hy with rfl | ⟨-, u, v, e', rfl⟩ | ⟨-, u, v, e', -⟩
    · exact freq2oct_of f e hB
    · cases e'; exact Contract.freq2oct_fused f0 hP.fin2 e2 hB
    · cases e'
  | _ => exact contract_rest b hb P hP hrcp _ hx hr hm

/-- One element of a binary function. -/
theorem C99_binary (c : Bool) (b : Build32) (hb : b.simdMath = true) (P : Platform 32)
    (op : BinOp) (x y : BitVec 32) (hx : IsFin binary32 x) (hy : IsFin binary32 y)
    (hr : BinRange op (binary32.toReal x) (binary32.toReal y)) :
    ∀ r ∈ Contract.binary c (b.ops P) (b.lane P) op x y,
      IsFin binary32 r ∧ BinNear op (binary32.toReal x) (binary32.toReal y) (binary32.toReal r) := by
  intro r hm
  have T := b.templates hb P
  cases op with
  | pow =>
    obtain ⟨n, p⟩ := normal_of_ge hx hr.1
    obtain ⟨h1, h2⟩ := Contract.vecPow_error T.ieee T.x86 n p hy hr.2.1 hr.2.2 r hm
    exact ⟨h1.2, h2⟩
  | spow =>
    obtain ⟨s, hs, rfl⟩ := Contract.vecSignedPow_eq T.ieee hm
    obtain ⟨f, h⟩ := signed_pow_of (y := y) (R := s) (isNormal_of_value hx hr.1) hr.2.1 hr.2.2
      fun h1 h2 h3 h4 => Contract.vecPow_error T.ieee T.x86 h1 h2 hy h3 h4 s hs
    rw [← sgn_eq_sign] at h
    exact ⟨f, h⟩
  | _ => rw [show r = _ from List.mem_singleton.mp hm]; exact C76_binary b hb P _ x y hx hy hr

/-- One element of a ternary function. -/
theorem C99_ternary (c : Bool) (b : Build32) (hb : b.simdMath = true) (P : Platform 32)
    (op : TerOp) (x y z : BitVec 32) (hx : IsFin binary32 x) (hy : IsFin binary32 y) (hz : IsFin binary32 z)
    (hr : TerRange op (binary32.toReal x) (binary32.toReal y) (binary32.toReal z)) :
    ∀ r ∈ Contract.ternary c (b.ops P) (b.lane P) op x y z,
      IsFin binary32 r ∧ TerNear op (binary32.toReal x) (binary32.toReal y) (binary32.toReal z) (binary32.toReal r) := by
  intro r hm
  cases op with
  | muladd =>
    obtain ⟨h1, h2⟩ := madd_near hx hy hz hr.1 hr.2
    rcases Contract.madd_cases b hb P hm with rfl | rfl
    · exact h1
    · exact h2
  | ampmod =>
    unfold Contract.ternary at hm
    dsimp only at hm
    rw [lane_mul32 b hb, lane_one32] at hm
    obtain ⟨g, hg, rfl⟩ := List.mem_map.mp hm
    exact Contract.ampmod_error hx hy hz hr.1 hr.2 g hg
  | _ => rw [show r = _ from List.mem_singleton.mp hm]; exact C76_ternary b hb P _ x y z hx hy hz hr

/-- One element of a function with four arguments. -/
theorem C99_quad (c : Bool) (b : Build32) (hb : b.simdMath = true) (P : Platform 32)
    (op : QuadOp) (x y z u : BitVec 32) (hx : IsFin binary32 x) (hy : IsFin binary32 y) (hz : IsFin binary32 z)
    (hu : IsFin binary32 u)
    (hr : QuadRange op (binary32.toReal x) (binary32.toReal y) (binary32.toReal z) (binary32.toReal u)) :
    ∀ r ∈ Contract.quad c (b.lane P) op x y z u,
      IsFin binary32 r ∧ QuadNear op (binary32.toReal x) (binary32.toReal y) (binary32.toReal z) (binary32.toReal u)
        (binary32.toReal r) := by
  intro r hm
  cases op with
  | mix =>
    rcases mem_sums hm with rfl | ⟨-, s, t, e, rfl⟩ | ⟨-, s, t, e, rfl⟩
    · exact mix_near hx hy hz hu hr.1 hr.2
    · cases e; exact Contract.mix_fused hx hy hz hu hr.1 hr.2
    · cases e
      have := Contract.mix_fused hz hu hx hy hr.2 hr.1
      rw [add_comm (binary32.toReal z * binary32.toReal u), add_comm |binary32.toReal z * binary32.toReal u|] at this
      exact this
  | _ => rw [show r = _ from List.mem_singleton.mp hm]; exact C76_quad b hb P _ x y z u hx hy hz hu hr

/-! ## Without contraction -/

/-- With `-ffp-contract=off` there is one result, the one which all other theorems are about. -/
theorem C99_off_unary (b : Build32) (hb : b.simdMath = true) (P : Platform 32) (op : UnOp) (x : BitVec 32) :
    Contract.unary false (b.ops P) (b.lane P) P.r2 P.r10 op x = [op.f (b.lane P) x] := by
  have T := b.templates hb P
  have h := T.ieee
  have eb : ∀ r, VecMath.vecLogBase (b.ops P) r = fun y => binary32.mul (VecMath.vecLog (b.ops P) y) r := fun r => by
    funext y; unfold VecMath.vecLogBase; rw [h.mul]
  cases op with
  | reciprocal =>
    unfold Contract.unary
    dsimp only
    rw [Contract.vecReciprocalNewton_off h]
    cases b <;> first | rfl | exact absurd hb (by decide)
  | sin => unfold Contract.unary; dsimp only; rw [Contract.vecSin_off h, ← T.sin]; rfl
  | cos => unfold Contract.unary; dsimp only; rw [Contract.vecCos_off h, ← T.cos]; rfl
  | tan => unfold Contract.unary; dsimp only; rw [Contract.vecTan_off h, ← T.tan]; rfl
  | asin => unfold Contract.unary; dsimp only; rw [Contract.vecAsin_off h, ← T.asin]; rfl
  | acos => unfold Contract.unary; dsimp only; rw [Contract.vecAcos_off h, ← T.acos]; rfl
  | atan => unfold Contract.unary; dsimp only; rw [Contract.vecAtan_off h, ← T.atan]; rfl
  | tanh => unfold Contract.unary; dsimp only; rw [Contract.vecTanh_off h, ← T.tanh]; rfl
  | log => unfold Contract.unary; dsimp only; rw [Contract.vecLog_off h, ← T.log]; rfl
  | exp => unfold Contract.unary; dsimp only; rw [Contract.vecExp_off h, ← T.exp]; rfl
  | log2 =>
    rw [show UnOp.log2.f (b.lane P) x = .ok ((b.lane P).log2 x) from rfl, T.log2, eb]
    unfold Contract.unary; dsimp only; rw [Contract.vecLogBase_off h]; rfl
  | log10 =>
    rw [show UnOp.log10.f (b.lane P) x = .ok ((b.lane P).log10 x) from rfl, T.log10, eb]
    unfold Contract.unary; dsimp only; rw [Contract.vecLogBase_off h]; rfl
  | midi2freq => unfold Contract.unary; dsimp only; rw [Contract.vecPow_off h, ← T.pow]; rfl
  | midi2ratio => unfold Contract.unary; dsimp only; rw [Contract.vecPow_off h, ← T.pow]; rfl
  | oct2freq => unfold Contract.unary; dsimp only; rw [Contract.vecPow_off h, ← T.pow]; rfl
  | db2amp => unfold Contract.unary; dsimp only; rw [Contract.vecPow_off h, ← T.pow]; rfl
  | ratio2midi =>
    rw [show UnOp.ratio2midi.f (b.lane P) x = .ok ((b.lane P).mul ((b.lane P).lit 12) ((b.lane P).log2 x)) from rfl, T.log2, eb]
    unfold Contract.unary; dsimp only; rw [Contract.vecLogBase_off h]; rfl
  | amp2db =>
    rw [show UnOp.amp2db.f (b.lane P) x = .ok ((b.lane P).mul ((b.lane P).log10 ((b.lane P).abs x)) ((b.lane P).lit 20)) from rfl, T.log10, eb]
    unfold Contract.unary; dsimp only; rw [Contract.vecLogBase_off h]; rfl
  | freq2midi =>
    rw [show UnOp.freq2midi.f (b.lane P) x = .ok ((b.lane P).add ((b.lane P).mul ((b.lane P).log2 ((b.lane P).abs
      ((b.lane P).mul x ((b.lane P).lit 0.0022727272727)))) ((b.lane P).lit 12)) ((b.lane P).lit 69)) from rfl, T.log2, eb,
      lane_add32, lane_mul32 b hb]
    unfold Contract.unary Contract.absLog2
    dsimp only
    rw [Contract.vecLogBase_off h, lane_mul32 b hb, List.flatMap_singleton, Contract.add, Fmt.sums_false]; rfl
  | freq2oct =>
    rw [show UnOp.freq2oct.f (b.lane P) x = .ok ((b.lane P).add ((b.lane P).log2 ((b.lane P).abs
      ((b.lane P).mul x ((b.lane P).lit 0.0022727272727)))) ((b.lane P).lit 4.75)) from rfl, T.log2, eb, lane_add32]
    unfold Contract.unary Contract.absLog2
    dsimp only
    rw [Contract.vecLogBase_off h, List.flatMap_singleton, Contract.add, Fmt.sums_false]; rfl
  | _ => rfl

theorem C99_off_binary (b : Build32) (hb : b.simdMath = true) (P : Platform 32) (op : BinOp) (x y : BitVec 32) :
    Contract.binary false (b.ops P) (b.lane P) op x y = [op.f (b.lane P) x y] := by
  have T := b.templates hb P
  cases op with
  | pow => unfold Contract.binary; dsimp only; rw [Contract.vecPow_off T.ieee, ← T.pow]; rfl
  | spow => unfold Contract.binary; dsimp only; rw [Contract.vecSignedPow_off T.ieee, ← T.signedPow]; rfl
  | _ => rfl

theorem C99_off_ternary (b : Build32) (hb : b.simdMath = true) (P : Platform 32) (op : TerOp) (x y z : BitVec 32) :
    Contract.ternary false (b.ops P) (b.lane P) op x y z = [op.f (b.lane P) x y z] := by
  cases op with
  | muladd =>
    unfold Contract.ternary Contract.madd
    cases b <;> first | rfl | exact absurd hb (by decide)
  | ampmod =>
    rw [show TerOp.ampmod.f (b.lane P) x y z = (b.lane P).mul x ((b.lane P).add (b.lane P).one ((b.lane P).mul y z)) from rfl,
      lane_add32, lane_mul32 b hb]
    unfold Contract.ternary
    dsimp only
    rw [Contract.add, Fmt.sums_false, lane_mul32 b hb]; rfl
  | _ => rfl

theorem C99_off_quad (b : Build32) (hb : b.simdMath = true) (P : Platform 32) (op : QuadOp) (x y z u : BitVec 32) :
    Contract.quad false (b.lane P) op x y z u = [op.f (b.lane P) x y z u] := by
  cases op with
  | mix =>
    rw [show QuadOp.mix.f (b.lane P) x y z u = (b.lane P).add ((b.lane P).mul x y) ((b.lane P).mul z u) from rfl,
      lane_add32, lane_mul32 b hb]
    unfold Contract.quad
    dsimp only
    rw [Contract.add, Fmt.sums_false]; rfl
  | _ => rfl

/-! ## With contraction the uncontracted result remains possible -/

theorem C99_possible_unary (c : Bool) (b : Build32) (hb : b.simdMath = true) (P : Platform 32) (op : UnOp) (x : BitVec 32) :
    op.f (b.lane P) x ∈ Contract.unary c (b.ops P) (b.lane P) P.r2 P.r10 op x := by
  have h : Contract.unary false (b.ops P) (b.lane P) P.r2 P.r10 op x ⊆ Contract.unary c (b.ops P) (b.lane P) P.r2 P.r10 op x := by
    cases op with
    | reciprocal => exact map_sub (Contract.vecReciprocalNewton_sub _ _ _)
    | sin => exact map_sub (Contract.vecSin_sub _ _ _)
    | cos => exact map_sub (Contract.vecCos_sub _ _ _)
    | tan => exact map_sub (Contract.vecTan_sub _ _ _)
    | asin => exact map_sub (Contract.vecAsin_sub _ _ _)
    | acos => exact map_sub (Contract.vecAcos_sub _ _ _)
    | atan => exact map_sub (Contract.vecAtan_sub _ _ _)
    | tanh => exact map_sub (Contract.vecTanh_sub _ _ _)
    | log => exact map_sub (Contract.vecLog_sub _ _ _)
    | exp => exact map_sub (Contract.vecExp_sub _ _ _)
    | log2 => exact map_sub (Contract.vecLogBase_sub _ _ _ _)
    | log10 => exact map_sub (Contract.vecLogBase_sub _ _ _ _)
    | midi2freq => exact map_sub (Contract.vecPow_sub _ _ _ _)
    | midi2ratio => exact map_sub (Contract.vecPow_sub _ _ _ _)
    | oct2freq => exact map_sub (Contract.vecPow_sub _ _ _ _)
    | db2amp => exact map_sub (Contract.vecPow_sub _ _ _ _)
    | ratio2midi => exact map_sub (Contract.vecLogBase_sub _ _ _ _)
    | amp2db => exact map_sub (Contract.vecLogBase_sub _ _ _ _)
    | freq2midi => exact flatMap_sub (Contract.vecLogBase_sub _ _ _ _) fun _ => map_sub (Fmt.sums_sub _ _ _ _)
    | freq2oct => exact flatMap_sub (Contract.vecLogBase_sub _ _ _ _) fun _ => map_sub (Fmt.sums_sub _ _ _ _)
    | _ => exact List.Subset.refl _
  apply h
  rw [C99_off_unary b hb]
  exact List.mem_singleton_self _

theorem C99_possible_binary (c : Bool) (b : Build32) (hb : b.simdMath = true) (P : Platform 32) (op : BinOp) (x y : BitVec 32) :
    op.f (b.lane P) x y ∈ Contract.binary c (b.ops P) (b.lane P) op x y := by
  have h : Contract.binary false (b.ops P) (b.lane P) op x y ⊆ Contract.binary c (b.ops P) (b.lane P) op x y := by
    cases op with
    | pow => exact Contract.vecPow_sub _ _ _ _
    | spow => exact Contract.vecSignedPow_sub _ _ _ _
    | _ => exact List.Subset.refl _
  apply h
  rw [C99_off_binary b hb]
  exact List.mem_singleton_self _

theorem C99_possible_ternary (c : Bool) (b : Build32) (hb : b.simdMath = true) (P : Platform 32) (op : TerOp)
    (x y z : BitVec 32) : op.f (b.lane P) x y z ∈ Contract.ternary c (b.ops P) (b.lane P) op x y z := by
  have h : Contract.ternary false (b.ops P) (b.lane P) op x y z ⊆ Contract.ternary c (b.ops P) (b.lane P) op x y z := by
    cases op with
    | muladd => exact Contract.madd_sub _ _ _ _ _
    | ampmod => exact map_sub (Fmt.sums_sub _ _ _ _)
    | _ => exact List.Subset.refl _
  apply h
  rw [C99_off_ternary b hb]
  exact List.mem_singleton_self _

theorem C99_possible_quad (c : Bool) (b : Build32) (hb : b.simdMath = true) (P : Platform 32) (op : QuadOp)
    (x y z u : BitVec 32) : op.f (b.lane P) x y z u ∈ Contract.quad c (b.lane P) op x y z u := by
  have h : Contract.quad false (b.lane P) op x y z u ⊆ Contract.quad c (b.lane P) op x y z u := by
    cases op with
    | mix => exact Fmt.sums_sub _ _ _ _
    | _ => exact List.Subset.refl _
  apply h
  rw [C99_off_quad b hb]
  exact List.mem_singleton_self _

/-! ## Whole calls

`f` is the function that the compiled loop body computes for one element: any function all of whose values are possible. -/

/-- `f_vec_simd(out, in, n)`. -/
theorem C99_unary_simd (c : Bool) (b : Build32) (hb : b.simdMath = true) (P : Platform 32) (hP : P.GoodLogs) (hrcp : P.GoodRcp)
    (op : UnOp) {f : BitVec 32 → Except Fault (BitVec 32)}
    (hf : ∀ x, f x ∈ Contract.unary c (b.ops P) (b.lane P) P.r2 P.r10 op x)
    {m : Mem (BitVec 32)} {out inp : Nat} {n : BitVec 32} {x : Nat → BitVec 32} (hn : 0 < n.toNat)
    (hmul : b.target.perLine ∣ n.toNat) (hoal : b.target.align ∣ out) (hial : b.target.align ∣ inp)
    (hout : Allocated m out n.toNat) (hin : Holds m inp n.toNat x) (hs : SafePlacement out inp n.toNat)
    (hx : ∀ i, i < n.toNat → IsFin binary32 (x i) ∧ UnRange op (binary32.toReal (x i))) :
    ∃ y : Nat → BitVec 32, performVecSimd1 (b.vec P) f out inp n m = .ok ((), overwrite m out n.toNat y) ∧
      ∀ i, i < n.toNat → IsFin binary32 (y i) ∧ UnNear op (binary32.toReal (x i)) (binary32.toReal (y i)) := by
  classical
  obtain ⟨y, hy⟩ : ∃ y : Nat → BitVec 32, ∀ i, i < n.toNat → f (x i) = .ok (y i) ∧ IsFin binary32 (y i) ∧
      UnNear op (binary32.toReal (x i)) (binary32.toReal (y i)) := by
    choose y hy using fun i (h : i < n.toNat) =>
      C99_unary c b hb P hP hrcp op (x i) (hx i h).1 (hx i h).2 (f (x i)) (hf (x i))
    exact ⟨fun i => if h : i < n.toNat then y i h else 0, fun i h => by simp only [dif_pos h]; exact hy i h⟩
  refine ⟨y, ?_, fun i h => (hy i h).2⟩
  have hp := processed_eq b.target (b.env P) hmul
  rw [← hp]
  apply performVecSimd1_spec (b.target.lawful (b.env P)) (x := x) (perLine_le b.target (b.env P) hn hmul) hoal <;> rw [hp]
  · exact hout
  · exact ⟨hial, hin, hs⟩
  · exact fun i h => (hy i h).1

/-- `f_vec_simd(out, arg0, arg1, n)`, every argument a pointer, a number or a ramp. -/
theorem C99_binary_simd (c : Bool) (bd : Build32) (hb : bd.simdMath = true) (P : Platform 32) (op : BinOp)
    {f : BitVec 32 → BitVec 32 → BitVec 32} (hf : ∀ x y, f x y ∈ Contract.binary c (bd.ops P) (bd.lane P) op x y)
    {m : Mem (BitVec 32)} {out : Nat} {a b : SArg (BitVec 32)} {n : BitVec 32} {x y : Nat → BitVec 32}
    (hn : 0 < n.toNat) (hmul : bd.target.perLine ∣ n.toNat) (hoal : bd.target.align ∣ out)
    (hout : Allocated m out n.toNat) (ha : SimdSupplies (bd.vec P) bd.target.align m out n.toNat a x)
    (hb' : SimdSupplies (bd.vec P) bd.target.align m out n.toNat b y)
    (hx : ∀ i, i < n.toNat → IsFin binary32 (x i) ∧ IsFin binary32 (y i) ∧
      BinRange op (binary32.toReal (x i)) (binary32.toReal (y i))) :
    ∃ z : Nat → BitVec 32, performVecSimd2 (bd.vec P) f out a b n m = .ok ((), overwrite m out n.toNat z) ∧
      ∀ i, i < n.toNat → IsFin binary32 (z i) ∧
        BinNear op (binary32.toReal (x i)) (binary32.toReal (y i)) (binary32.toReal (z i)) := by
  refine ⟨fun i => f (x i) (y i), ?_, fun i h =>
    C99_binary c bd hb P op (x i) (y i) (hx i h).1 (hx i h).2.1 (hx i h).2.2 _ (hf _ _)⟩
  have hp := processed_eq bd.target (bd.env P) hmul
  rw [← hp] at hout ha hb' ⊢
  exact performVecSimd2_spec (bd.target.lawful (bd.env P)) (perLine_le bd.target (bd.env P) hn hmul) hoal hout ha hb'

/-- `f_vec_simd(out, arg0, arg1, arg2, n)`. -/
theorem C99_ternary_simd (ct : Bool) (bd : Build32) (hb : bd.simdMath = true) (P : Platform 32) (op : TerOp)
    {f : BitVec 32 → BitVec 32 → BitVec 32 → BitVec 32}
    (hf : ∀ x y z, f x y z ∈ Contract.ternary ct (bd.ops P) (bd.lane P) op x y z)
    {m : Mem (BitVec 32)} {out : Nat} {a b c : SArg (BitVec 32)} {n : BitVec 32} {x y z : Nat → BitVec 32}
    (hn : 0 < n.toNat) (hmul : bd.target.perLine ∣ n.toNat) (hoal : bd.target.align ∣ out)
    (hout : Allocated m out n.toNat) (ha : SimdSupplies (bd.vec P) bd.target.align m out n.toNat a x)
    (hb' : SimdSupplies (bd.vec P) bd.target.align m out n.toNat b y)
    (hc : SimdSupplies (bd.vec P) bd.target.align m out n.toNat c z)
    (hx : ∀ i, i < n.toNat → IsFin binary32 (x i) ∧ IsFin binary32 (y i) ∧ IsFin binary32 (z i) ∧
      TerRange op (binary32.toReal (x i)) (binary32.toReal (y i)) (binary32.toReal (z i))) :
    ∃ r : Nat → BitVec 32, performVecSimd3 (bd.vec P) f out a b c n m = .ok ((), overwrite m out n.toNat r) ∧
      ∀ i, i < n.toNat → IsFin binary32 (r i) ∧
        TerNear op (binary32.toReal (x i)) (binary32.toReal (y i)) (binary32.toReal (z i)) (binary32.toReal (r i)) := by
  refine ⟨fun i => f (x i) (y i) (z i), ?_, fun i h =>
    C99_ternary ct bd hb P op (x i) (y i) (z i) (hx i h).1 (hx i h).2.1 (hx i h).2.2.1 (hx i h).2.2.2 _ (hf _ _ _)⟩
  have hp := processed_eq bd.target (bd.env P) hmul
  rw [← hp] at hout ha hb' hc ⊢
  exact performVecSimd3_spec (bd.target.lawful (bd.env P)) (perLine_le bd.target (bd.env P) hn hmul) hoal hout ha hb' hc

/-- `f_vec_simd(out, arg0, arg1, arg2, arg3, n)`. -/
theorem C99_quad_simd (ct : Bool) (bd : Build32) (hb : bd.simdMath = true) (P : Platform 32) (op : QuadOp)
    {f : BitVec 32 → BitVec 32 → BitVec 32 → BitVec 32 → BitVec 32}
    (hf : ∀ x y z u, f x y z u ∈ Contract.quad ct (bd.lane P) op x y z u)
    {m : Mem (BitVec 32)} {out : Nat} {a b c d : SArg (BitVec 32)} {n : BitVec 32} {x y z u : Nat → BitVec 32}
    (hn : 0 < n.toNat) (hmul : bd.target.perLine ∣ n.toNat) (hoal : bd.target.align ∣ out)
    (hout : Allocated m out n.toNat) (ha : SimdSupplies (bd.vec P) bd.target.align m out n.toNat a x)
    (hb' : SimdSupplies (bd.vec P) bd.target.align m out n.toNat b y)
    (hc : SimdSupplies (bd.vec P) bd.target.align m out n.toNat c z)
    (hd : SimdSupplies (bd.vec P) bd.target.align m out n.toNat d u)
    (hx : ∀ i, i < n.toNat → IsFin binary32 (x i) ∧ IsFin binary32 (y i) ∧ IsFin binary32 (z i) ∧ IsFin binary32 (u i) ∧
      QuadRange op (binary32.toReal (x i)) (binary32.toReal (y i)) (binary32.toReal (z i)) (binary32.toReal (u i))) :
    ∃ r : Nat → BitVec 32, performVecSimd4 (bd.vec P) f out a b c d n m = .ok ((), overwrite m out n.toNat r) ∧
      ∀ i, i < n.toNat → IsFin binary32 (r i) ∧
        QuadNear op (binary32.toReal (x i)) (binary32.toReal (y i)) (binary32.toReal (z i)) (binary32.toReal (u i))
          (binary32.toReal (r i)) := by
  refine ⟨fun i => f (x i) (y i) (z i) (u i), ?_, fun i h =>
    C99_quad ct bd hb P op (x i) (y i) (z i) (u i) (hx i h).1 (hx i h).2.1 (hx i h).2.2.1 (hx i h).2.2.2.1 (hx i h).2.2.2.2
      _ (hf _ _ _ _)⟩
  have hp := processed_eq bd.target (bd.env P) hmul
  rw [← hp] at hout ha hb' hc hd ⊢
  exact performVecSimd4_spec (bd.target.lawful (bd.env P)) (perLine_le bd.target (bd.env P) hn hmul) hoal hout ha hb' hc hd

/-! ## What contraction changes -/

/-- A signal mixed with its own inversion: without contraction the two products cancel and the result is zero for this (in
fact every) signal and factor; with contraction the rounding error of one product may remain. -/
theorem C99_negation_cancel (b : Build32) (hb : b.simdMath = true) (P : Platform 32) :
    QuadOp.mix.f (b.lane P) 0x3f800001#32 0x3f800001#32 0xbf800001#32 0x3f800001#32 = 0#32 ∧
    ∃ r ∈ Contract.quad true (b.lane P) .mix 0x3f800001#32 0x3f800001#32 0xbf800001#32 0x3f800001#32,
      binary32.toReal r = 1 / 2 ^ 46 := by
  have e : QuadOp.mix.f (b.lane P) 0x3f800001#32 0x3f800001#32 0xbf800001#32 0x3f800001#32 = binary32.add
      (binary32.mul 0x3f800001#32 0x3f800001#32) (binary32.mul 0xbf800001#32 0x3f800001#32) := by
    change Functor.mix2 (b.lane P) _ _ _ _ = _
    unfold Functor.mix2
    rw [lane_mul32 b hb, lane_add32]
  refine ⟨by rw [e]; decide +kernel, 0x28800000#32, ?_, ?_⟩
  · change _ ∈ binary32.sums true (.prod 0x3f800001#32 0x3f800001#32) (.prod 0xbf800001#32 0x3f800001#32)
    decide +kernel
  · obtain ⟨-, h⟩ := val32 (x := 0x28800000#32) (1 / 2 ^ 46) (by decide +kernel)
    rw [h]; norm_num

/-- Without contraction the products of a signal and of its inversion with the same factor cancel, whatever the finite signal. -/
theorem C99_cancel (b : Build32) (hb : b.simdMath = true) (P : Platform 32) (s t : BitVec 32) (hs : IsFin binary32 s)
    (ht : IsFin binary32 t) (hr : |binary32.toReal s * binary32.toReal t| ≤ 2 ^ 127) :
    binary32.toReal (QuadOp.mix.f (b.lane P) s t (binary32.negate s) t) = 0 := by
  have e : QuadOp.mix.f (b.lane P) s t (binary32.negate s) t = binary32.add
      (binary32.mul s t) (binary32.mul (binary32.negate s) t) := by
    change Functor.mix2 (b.lane P) _ _ _ _ = _
    unfold Functor.mix2
    rw [lane_mul32 b hb, lane_add32]
  obtain ⟨f, -⟩ := mul_near32 hs ht hr
  rw [e, binary32.mul_negate_left (binary32.isFinite_not_nan f)]
  generalize binary32.mul s t = p at *
  have fn : IsFin binary32 (binary32.negate p) := by unfold IsFin at *; simpa using f
  have vn : binary32.toReal (binary32.negate p) = -binary32.toReal p := binary32.toReal_negate p
  obtain ⟨-, h⟩ := add_near32 f fn (by rw [vn, add_neg_cancel, abs_zero]; positivity)
  rw [vn, add_neg_cancel, sub_zero, abs_zero, mul_zero] at h
  exact abs_nonpos_iff.mp h

/-! ## The hypotheses are satisfiable -/

example : (Build32.avx false).simdMath = true ∧ IsFin binary32 0x3f000000#32 ∧
    (2 ≤ (Contract.ternary true ((Build32.avx false).ops platform0) ((Build32.avx false).lane platform0) .ampmod
      0x3f000000#32 0x3f000000#32 0x3f000000#32).length) :=
  ⟨rfl, by decide, by decide +kernel⟩

/-- A compiler which fuses the first product of `mix`, and one which fuses nothing. -/
example (b : Build32) (P : Platform 32) :
    (∀ x y z u, binary32.fma x y (binary32.mul z u) ∈ Contract.quad true (b.lane P) .mix x y z u) ∧
    (∀ x y z u, binary32.add (binary32.mul x y) (binary32.mul z u) ∈ Contract.quad true (b.lane P) .mix x y z u) ∧
    binary32.fma 0x3f800001#32 0x3f800001#32 (binary32.mul 0xbf800001#32 0x3f800001#32) ≠
      binary32.add (binary32.mul 0x3f800001#32 0x3f800001#32) (binary32.mul 0xbf800001#32 0x3f800001#32) :=
  ⟨fun x y z u => by simp [Contract.quad, Contract.add, Fmt.sums, Fmt.value],
    fun x y z u => by simp [Contract.quad, Contract.add, Fmt.sums, Fmt.value], by decide +kernel⟩

end Nova
