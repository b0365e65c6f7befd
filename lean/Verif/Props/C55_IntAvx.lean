import Verif.Model.IntAvx

/-!
# C55 the integer vectors act lane by lane

A register is a bit pattern of 128 or 256 bits, lane `i` its bits from `32 i` to `32 i + 31`.  Every operation of the AVX
class does to each of its eight lanes what the same operation on `int` does, whatever the undefined upper half of the
intermediate register contains.
-/

namespace Nova.IntVec

theorem lane_pack (a0 a1 a2 a3 : BitVec 32) :
    lane (pack a0 a1 a2 a3) 0 = a0 ∧ lane (pack a0 a1 a2 a3) 1 = a1 ∧ lane (pack a0 a1 a2 a3) 2 = a2 ∧
    lane (pack a0 a1 a2 a3) 3 = a3 := by
  refine ⟨?_, ?_, ?_, ?_⟩
  · unfold lane pack
    ext i hi
    rw [BitVec.getElem_extractLsb']
    rw [BitVec.getLsbD_append, if_pos (by omega), ← BitVec.getLsbD_eq_getElem]
    congr 1
    omega
  · unfold lane pack
    ext i hi
    rw [BitVec.getElem_extractLsb']
    rw [BitVec.getLsbD_append, if_neg (by omega), BitVec.getLsbD_append, if_pos (by omega), ← BitVec.getLsbD_eq_getElem]
    congr 1
    omega
  · unfold lane pack
    ext i hi
    rw [BitVec.getElem_extractLsb']
    rw [BitVec.getLsbD_append, if_neg (by omega), BitVec.getLsbD_append, if_neg (by omega), BitVec.getLsbD_append, if_pos (by omega), ← BitVec.getLsbD_eq_getElem]
    congr 1
    omega
  · unfold lane pack
    ext i hi
    rw [BitVec.getElem_extractLsb']
    rw [BitVec.getLsbD_append, if_neg (by omega), BitVec.getLsbD_append, if_neg (by omega), BitVec.getLsbD_append, if_neg (by omega), ← BitVec.getLsbD_eq_getElem]
    congr 1
    omega

theorem lane_cases {i : Nat} (h : i < 4) : i = 0 ∨ i = 1 ∨ i = 2 ∨ i = 3 := by omega

theorem lane_map2 (f : BitVec 32 → BitVec 32 → BitVec 32) (a b : BitVec 128) {i : Nat} (h : i < 4) :
    lane (map2 f a b) i = f (lane a i) (lane b i) := by
  unfold map2
  obtain ⟨h0, h1, h2, h3⟩ := lane_pack (f (lane a 0) (lane b 0)) (f (lane a 1) (lane b 1))
    (f (lane a 2) (lane b 2)) (f (lane a 3) (lane b 3))
  rcases lane_cases h with h | h | h | h <;> subst h <;> assumption

theorem lane_map1 (f : BitVec 32 → BitVec 32) (a : BitVec 128) {i : Nat} (h : i < 4) :
    lane (map1 f a) i = f (lane a i) := by
  unfold map1
  obtain ⟨h0, h1, h2, h3⟩ := lane_pack (f (lane a 0)) (f (lane a 1)) (f (lane a 2)) (f (lane a 3))
  rcases lane_cases h with h | h | h | h <;> subst h <;> assumption

theorem lane_low (a : BitVec 256) {i : Nat} (h : i < 4) : lane (low a) i = lane a i := by
  unfold lane low
  ext j hj
  simp only [BitVec.getElem_extractLsb', BitVec.getLsbD_extractLsb']
  rw [decide_eq_true (by omega), Bool.true_and, Nat.zero_add]

theorem lane_high (a : BitVec 256) {i : Nat} (h : i < 4) : lane (high a) i = lane a (4 + i) := by
  unfold lane high
  ext j hj
  simp only [BitVec.getElem_extractLsb', BitVec.getLsbD_extractLsb']
  rw [decide_eq_true (by omega), Bool.true_and]
  congr 1
  omega

theorem lane_insert_low (junk a b : BitVec 128) {i : Nat} (h : i < 4) :
    lane (insertHigh (widen junk a) b) i = lane a i := by
  unfold lane insertHigh widen
  ext j hj
  simp only [BitVec.getElem_extractLsb', BitVec.getLsbD_append, BitVec.getLsbD_extractLsb']
  rw [if_pos (by omega), decide_eq_true (by omega), Bool.true_and, Nat.zero_add, if_pos (by omega)]

theorem lane_insert_high (junk a b : BitVec 128) {i : Nat} (h : i < 4) :
    lane (insertHigh (widen junk a) b) (4 + i) = lane b i := by
  unfold lane insertHigh widen
  ext j hj
  simp only [BitVec.getElem_extractLsb', BitVec.getLsbD_append]
  rw [if_neg (by omega), show 32 * (4 + i) + j - 128 = 32 * i + j by omega]

theorem lane_and {w : Nat} (a b : BitVec w) (i : Nat) : lane (a &&& b) i = lane a i &&& lane b i := by
  unfold lane; ext j hj; simp

theorem lane_not {w : Nat} (a : BitVec w) {i : Nat} (h : 32 * i + 32 ≤ w) : lane (~~~a) i = ~~~lane a i := by
  unfold lane; ext j hj
  simp only [BitVec.getElem_extractLsb', BitVec.getLsbD_not, BitVec.getElem_not]
  rw [decide_eq_true (by omega), Bool.true_and]

/-- The halves of a lane index. -/
theorem half_cases {i : Nat} (h : i < 8) : (i < 4) ∨ ∃ j, j < 4 ∧ i = 4 + j := by
  by_cases h4 : i < 4
  · exact .inl h4
  · exact .inr ⟨i - 4, by omega, by omega⟩

theorem lane_apply {g : BitVec 128 → BitVec 128 → BitVec 128} {f : BitVec 32 → BitVec 32 → BitVec 32}
    (hg : ∀ a b i, i < 4 → lane (g a b) i = f (lane a i) (lane b i)) (junk : BitVec 128) (a b : BitVec 256) {i : Nat}
    (h : i < 8) : lane (applySse g junk a b) i = f (lane a i) (lane b i) := by
  unfold applySse
  dsimp only
  rcases half_cases h with h4 | ⟨j, h4, rfl⟩
  · rw [lane_insert_low _ _ _ h4, hg _ _ _ h4, lane_low _ h4, lane_low _ h4]
  · rw [lane_insert_high _ _ _ h4, hg _ _ _ h4, lane_high _ h4, lane_high _ h4]

/-- Addition, subtraction and the comparisons of `int_vec_avx`; the masks are all ones or all zeros. -/
theorem C55_binary (junk : BitVec 128) (a b : BitVec 256) (i : Nat) (h : i < 8) :
    lane (avxAdd junk a b) i = lane a i + lane b i ∧
    lane (avxSub junk a b) i = lane a i - lane b i ∧
    lane (avxLt junk a b) i = (if (lane a i).toInt < (lane b i).toInt then BitVec.allOnes 32 else 0#32) ∧
    lane (avxGt junk a b) i = (if (lane a i).toInt > (lane b i).toInt then BitVec.allOnes 32 else 0#32) ∧
    lane (avxEq junk a b) i = (if lane a i = lane b i then BitVec.allOnes 32 else 0#32) ∧
    lane (avxAnd a b) i = lane a i &&& lane b i ∧
    lane (avxAndnot a b) i = ~~~lane a i &&& lane b i := by
  refine ⟨?_, ?_, ?_, ?_, ?_, ?_, ?_⟩
  · exact lane_apply (fun _ _ _ h => lane_map2 _ _ _ h) junk a b h
  · exact lane_apply (fun _ _ _ h => lane_map2 _ _ _ h) junk a b h
  · refine (lane_apply (fun _ _ _ h => lane_map2 _ _ _ h) junk a b h).trans ?_
    unfold mask
    rw [BitVec.slt]
    simp only [decide_eq_true_eq]
  · refine (lane_apply (fun _ _ _ h => lane_map2 _ _ _ h) junk a b h).trans ?_
    unfold mask
    rw [BitVec.slt]
    simp only [decide_eq_true_eq, gt_iff_lt]
  · refine (lane_apply (fun _ _ _ h => lane_map2 _ _ _ h) junk a b h).trans ?_
    unfold mask
    simp only [beq_iff_eq]
  · exact lane_and a b i
  · exact (lane_and _ b i).trans (by rw [lane_not a (by omega)])

/-- The shifts, for every count: counts outside 0 … 31 give 0.  `set1` fills all lanes. -/
theorem C55_shift (junk : BitVec 128) (a : BitVec 256) (count x : BitVec 32) (i : Nat) (h : i < 8) :
    lane (avxSlli junk a count) i = (if count.toNat ≤ 31 then lane a i <<< count.toNat else 0#32) ∧
    lane (avxSrli junk a count) i = (if count.toNat ≤ 31 then lane a i >>> count.toNat else 0#32) ∧
    lane (avxSet1 x) i = x := by
  have e1 : ∀ y, slliLane count y = if count.toNat ≤ 31 then y <<< count.toNat else 0#32 := by
    intro y; unfold slliLane
    by_cases hc : count.toNat ≤ 31
    · rw [if_pos hc, if_neg (by omega)]
    · rw [if_neg hc, if_pos (by omega)]
  have e2 : ∀ y, srliLane count y = if count.toNat ≤ 31 then y >>> count.toNat else 0#32 := by
    intro y; unfold srliLane
    by_cases hc : count.toNat ≤ 31
    · rw [if_pos hc, if_neg (by omega)]
    · rw [if_neg hc, if_pos (by omega)]
  rw [← e1, ← e2]
  unfold avxSlli avxSrli sseSlli sseSrli avxSet1 sseSet1
  dsimp only
  have hs : ∀ b : BitVec 128, ∀ c : BitVec 128, b ++ c = insertHigh (widen c c) b := by
    intro b c
    unfold insertHigh widen
    ext j hj
    simp only [BitVec.getElem_append, BitVec.getElem_extractLsb', BitVec.getLsbD_append]
    by_cases h' : j < 128
    · simp [h', BitVec.getLsbD_eq_getElem]
    · simp [h']
  rw [hs]
  obtain ⟨h0, h1, h2, h3⟩ := lane_pack x x x x
  rcases half_cases h with h4 | ⟨j, h4, rfl⟩
  · rw [lane_insert_low _ _ _ h4, lane_insert_low _ _ _ h4, lane_insert_low _ _ _ h4, lane_map1 _ _ h4, lane_map1 _ _ h4,
      lane_low _ h4]
    refine ⟨rfl, rfl, ?_⟩
    rcases lane_cases h4 with h | h | h | h <;> subst h <;> assumption
  · rw [lane_insert_high _ _ _ h4, lane_insert_high _ _ _ h4, lane_insert_high _ _ _ h4, lane_map1 _ _ h4,
      lane_map1 _ _ h4, lane_high _ h4]
    refine ⟨rfl, rfl, ?_⟩
    rcases lane_cases h4 with h | h | h | h <;> subst h <;> assumption

/-- The same for the SSE2 class and its four lanes. -/
theorem C55_sse2 (a b : BitVec 128) (count : BitVec 32) (i : Nat) (h : i < 4) :
    lane (sseAdd a b) i = lane a i + lane b i ∧
    lane (sseSub a b) i = lane a i - lane b i ∧
    lane (sseLt a b) i = (if (lane a i).toInt < (lane b i).toInt then BitVec.allOnes 32 else 0#32) ∧
    lane (sseGt a b) i = (if (lane a i).toInt > (lane b i).toInt then BitVec.allOnes 32 else 0#32) ∧
    lane (sseEq a b) i = (if lane a i = lane b i then BitVec.allOnes 32 else 0#32) ∧
    lane (sseAnd a b) i = lane a i &&& lane b i ∧
    lane (sseAndnot a b) i = ~~~lane a i &&& lane b i ∧
    lane (sseSlli a count) i = (if count.toNat ≤ 31 then lane a i <<< count.toNat else 0#32) ∧
    lane (sseSrli a count) i = (if count.toNat ≤ 31 then lane a i >>> count.toNat else 0#32) := by
  refine ⟨lane_map2 _ _ _ h, lane_map2 _ _ _ h, ?_, ?_, ?_, lane_and a b i, ?_, ?_, ?_⟩
  · refine (lane_map2 _ _ _ h).trans ?_
    unfold mask
    rw [BitVec.slt]
    simp only [decide_eq_true_eq]
  · refine (lane_map2 _ _ _ h).trans ?_
    unfold mask
    rw [BitVec.slt]
    simp only [decide_eq_true_eq, gt_iff_lt]
  · refine (lane_map2 _ _ _ h).trans ?_
    unfold mask
    simp only [beq_iff_eq]
  · exact (lane_and _ b i).trans (by rw [lane_not a (by omega)])
  · refine (lane_map1 _ _ h).trans ?_
    unfold slliLane
    by_cases hc : count.toNat ≤ 31
    · rw [if_pos hc, if_neg (by omega)]
    · rw [if_neg hc, if_pos (by omega)]
  · refine (lane_map1 _ _ h).trans ?_
    unfold srliLane
    by_cases hc : count.toNat ≤ 31
    · rw [if_pos hc, if_neg (by omega)]
    · rw [if_neg hc, if_pos (by omega)]

/-- A concrete addition, with a carry that does not cross lanes. -/
example : lane (avxAdd 0#128 (avxSet1 0xffffffff#32) (avxSet1 2#32)) 5 = 1#32 := by decide

end Nova.IntVec
