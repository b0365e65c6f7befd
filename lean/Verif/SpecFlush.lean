import Verif.SpecSame
import Verif.Model.Flush

/-!
# What flushing subnormal numbers may change

Small specification for property C89.
-/

namespace Nova.Spec
open Nova.FP

/-- A value that no flag can change: a zero, or above the least normal number (also an infinity or a NaN). -/
def Clear {w : Nat} (F : Fmt w) (x : BitVec w) : Prop := F.code x = 0 ∨ 2 ^ F.mb < F.code x

/-- Arithmetic functions of one argument. -/
def UnCalc : UnOp → Bool
  | .square | .cube => true
  | _ => false

/-- Arithmetic functions of two arguments. -/
def BinCalc : BinOp → Bool
  | .plus | .minus | .times | .over | .sum => true
  | _ => false

/-- Functions that compare two arguments. -/
def BinCompare : BinOp → Bool
  | .min | .max | .less | .lessEqual | .greater | .greaterEqual | .equal | .notequal => true
  | _ => false

/-- Arithmetic functions of three arguments. -/
def TerCalc : TerOp → Bool
  | .muladd | .ampmod | .sum => true
  | _ => false

section
variable {w : Nat} (F : Fmt w) (A : Arith (BitVec w))

/-- Operand, intermediate results and result of a function of one argument, as computed with subnormals, are clear. -/
def UnClear (op : UnOp) (x : BitVec w) : Prop :=
  Clear F x ∧ Clear F (A.mul x x) ∧ (op = .cube → Clear F (A.cube x))

/-- … of two arguments -/
def BinClear (op : BinOp) (x y : BitVec w) : Prop :=
  Clear F x ∧ Clear F y ∧ (BinCalc op = true → Clear F (op.f A x y))

/-- … of three arguments -/
def TerClear (op : TerOp) (x y z : BitVec w) : Prop :=
  Clear F x ∧ Clear F y ∧ Clear F z ∧ Clear F (op.f A x y z) ∧
  match op with
  | .muladd => Clear F (A.mul x y) ∧ Clear F (A.mul y x)
  | .ampmod => Clear F (A.mul y z) ∧ Clear F (A.add A.one (A.mul y z))
  | .sum => Clear F (A.add x y)
  | .clip => True

/-- … of four arguments -/
def QuadClear (op : QuadOp) (x y z u : BitVec w) : Prop :=
  Clear F x ∧ Clear F y ∧ Clear F z ∧ Clear F u ∧ Clear F (op.f A x y z u) ∧
  match op with
  | .mix => Clear F (A.mul x y) ∧ Clear F (A.mul z u)
  | .sum => Clear F (A.add x y) ∧ Clear F (A.add z u)

end

end Nova.Spec
