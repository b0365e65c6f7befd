import Verif.Spec
import Verif.Model.Unroll

/-!
# What the loops rely on, and what an argument supplies

`VecImpl.Lawful` is the interface between the loops and the vector classes; it is proved for every
back end in `Verif/Lemmas/Backends.lean`.  `SimdSupplies` / `ScalarSupplies` say which value an argument has
at element `i`.
-/

namespace Nova
open Spec
variable {α : Type}

/-- A vector class whose aligned accesses work at multiples of `al` elements. -/
structure VecImpl.Lawful (I : VecImpl α) (al : Nat) : Prop where
  al_pos : 0 < al
  al_dvd : al ∣ I.size
  line_dvd : I.size ∣ I.perLine
  line_pos : 0 < I.perLine
  line_small : I.perLine < 2 ^ 32
  loadAligned : ∀ p, al ∣ p → I.loadAligned p = readVec I.size p
  storeAligned : ∀ v p, al ∣ p → I.storeAligned v p = writeVec v p
  setVec : ∀ c i, I.setVec c i = c
  clear : ∀ i, I.clear i = I.lane.zero

/-- A vector class whose unaligned accesses work everywhere (all but Altivec). -/
structure VecImpl.LawfulUnaligned (I : VecImpl α) : Prop where
  load : ∀ p, I.load p = readVec I.size p
  store : ∀ v p, I.store v p = writeVec v p

/-- Element `i` of a ramp argument in the scalar loops: `data += slope_` before every element. -/
def scalarRamp (A : Arith α) (base slope : α) : Nat → α
  | 0 => base
  | i + 1 => A.add (scalarRamp A base slope i) slope

/-- Register `j`, lane `l` of a ramp argument in the SIMD loops. -/
def simdRampReg (I : VecImpl α) (base slope : α) : Nat → Fin I.size → α
  | 0 => (I.setSlope base slope).1
  | j + 1 => fun l => I.lane.add (simdRampReg I base slope j l)
      (I.setVec (I.viaFloat (I.setSlope base slope).2) l)

/-- Element `i` of a ramp argument in the SIMD loops. -/
def simdRamp (I : VecImpl α) (base slope : α) (i : Nat) : α :=
  simdRampReg I base slope (i / I.size) ⟨i % I.size, Nat.mod_lt _ I.size_pos⟩

/-- In a scalar call on `n` elements with output `out`, the argument has value `x i` at element `i`. -/
def ScalarSupplies (A : Arith α) (m : Mem α) (out n : Nat) : SArg α → (Nat → α) → Prop
  | .ptr p, x => Holds m p n x ∧ SafePlacement out p n
  | .scalar c, x => ∀ i, i < n → x i = c
  | .ramp b s, x => ∀ i, i < n → x i = scalarRamp A b s i

/-- In a SIMD call on `n` elements with output `out`, the argument has value `x i` at element `i`.
Pointers must be aligned to `al` elements. -/
def SimdSupplies (I : VecImpl α) (al : Nat) (m : Mem α) (out n : Nat) : SArg α → (Nat → α) → Prop
  | .ptr p, x => al ∣ p ∧ Holds m p n x ∧ SafePlacement out p n
  | .scalar c, x => ∀ i, i < n → x i = c
  | .ramp b s, x => ∀ i, i < n → x i = simdRamp I b s i

end Nova
