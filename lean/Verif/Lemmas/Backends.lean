import Verif.Model.Backends
import Verif.Laws

/-!
# Every target satisfies the laws the loops rely on (helper lemmas)
-/

namespace Nova
variable {α : Type}

theorem alignedAt_dvd {β : Type} {w p : Nat} {x : Exec α β} (h : w ∣ p) : alignedAt w p x = x := by
  unfold alignedAt
  rw [if_pos (Nat.mod_eq_zero_of_dvd h)]

theorem altivec_trunc_dvd {p : Nat} (h : 4 ∣ p) : Altivec.trunc p = p :=
  Nat.div_mul_cancel h

theorem Target.vec_size (t : Target) (E : Env α) : (t.vec E).size = t.size := by cases t <;> rfl

theorem Target.vec_perLine (t : Target) (E : Env α) : (t.vec E).perLine = t.perLine := by
  cases t <;> rfl

theorem Target.vec_lane (t : Target) (E : Env α) : (t.vec E).lane = E.L := by cases t <;> rfl

theorem Target.align_pos (t : Target) : 0 < t.align := by
  cases t <;> simp [align]

theorem Target.align_dvd (t : Target) : t.align ∣ t.size := by
  cases t <;> simp [align, size]

theorem Target.size_dvd (t : Target) : t.size ∣ t.perLine := by
  cases t <;> simp [size, perLine]

theorem Target.size_pos (t : Target) : 0 < t.size := by
  cases t <;> simp [size]

theorem Target.perLine_pos (t : Target) : 0 < t.perLine := by
  cases t <;> simp [perLine]

theorem Target.perLine_small (t : Target) : t.perLine < 2 ^ 32 := by
  cases t <;> simp [perLine]

theorem Target.lawful (t : Target) (E : Env α) : (t.vec E).Lawful t.align where
  al_pos := t.align_pos
  al_dvd := by rw [t.vec_size]; exact t.align_dvd
  line_dvd := by rw [t.vec_size, t.vec_perLine]; exact t.size_dvd
  line_pos := by rw [t.vec_perLine]; exact t.perLine_pos
  line_small := by rw [t.vec_perLine]; exact t.perLine_small
  loadAligned := by
    intro p h
    cases t <;> first
      | rfl
      | exact alignedAt_dvd h
      | (show readVec 4 _ = readVec 4 _; rw [altivec_trunc_dvd h])
  storeAligned := by
    intro v p h
    cases t <;> first
      | rfl
      | exact alignedAt_dvd h
      | (show writeVec v _ = writeVec v _; rw [altivec_trunc_dvd h])
  setVec := by intro c i; cases t <;> rfl
  clear := by intro i; cases t <;> rfl

theorem Target.lawfulUnaligned (t : Target) (ht : t ≠ .altivec) (E : Env α) :
    (t.vec E).LawfulUnaligned := by
  cases t <;> first | exact ⟨fun _ => rfl, fun _ _ => rfl⟩ | exact absurd rfl ht

end Nova
