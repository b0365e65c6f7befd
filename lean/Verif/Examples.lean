import Verif.Model.Backends
import Verif.Model.Functors
import Verif.Spec

/-!
# Concrete instances used by the `example`s beside the theorems

Integer arithmetic: exact, decidable, and enough to run the model.
-/

namespace Nova.Examples

/-- Integer arithmetic; the transcendental functions are the identity. -/
def intArith : Arith Int where
  zero := 0
  one := 1
  lit r := r.num / r.den
  add := (· + ·)
  sub := (· - ·)
  mul := (· * ·)
  div := (· / ·)
  madd a b c := a * b + c
  max_ := max
  min_ := min
  lt a b := if a < b then 1 else 0
  le a b := if a ≤ b then 1 else 0
  gt a b := if a > b then 1 else 0
  ge a b := if a ≥ b then 1 else 0
  eq a b := if a = b then 1 else 0
  ne a b := if a ≠ b then 1 else 0
  less a b := decide (a < b)
  abs a := a.natAbs
  sign := Int.sign
  square a := a * a
  cube a := a * a * a
  reciprocal a := 1 / a
  undenormalize := id
  round := id
  floor := id
  ceil := id
  frac _ := 0
  trunc a := if a.natAbs < 2 ^ 63 then .ok a else .error .badConv
  sin := id
  cos := id
  tan := id
  asin := id
  acos := id
  atan := id
  tanh := id
  log := id
  log2 := id
  log10 := id
  exp := id
  signedSqrt := id
  pow a b := a ^ b.toNat
  signedPow a b := a ^ b.toNat
  softclip := id

/-- A build whose arithmetic is `intArith`; undefined lanes contain 99. -/
def intEnv : Env Int where
  S := intArith
  L := intArith
  viaFloat := id
  junk := fun _ => 99
  ndebug := true

/-- A memory with cells `0 … k-1` holding `10*a - 100`. -/
def ramp (k : Nat) : Mem Int := fun a => if a < k then some (10 * (a : Int) - 100) else none

end Nova.Examples
