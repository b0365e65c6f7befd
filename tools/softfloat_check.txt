import Verif.Float.Format
open Nova.FP
def f32 (x : BitVec 32) : Float32 := Float32.ofBits (UInt32.ofBitVec x)
def b32 (x : Float32) : BitVec 32 := x.toBits.toBitVec
def f64 (x : BitVec 64) : Float := Float.ofBits (UInt64.ofBitVec x)
def b64 (x : Float) : BitVec 64 := x.toBits.toBitVec
def same32 (a b : BitVec 32) : Bool := a == b || (binary32.isNaN a && binary32.isNaN b)
def same64 (a b : BitVec 64) : Bool := a == b || (binary64.isNaN a && binary64.isNaN b)
def lcg (s : Nat) : Nat := (s * 6364136223846793005 + 1442695040888963407) % 2^64
def rnd32 (s : Nat) : BitVec 32 :=
  let k := s % 16
  let r := (s / 2^20) % 2^32
  if k < 10 then BitVec.ofNat 32 r else if k < 14 then BitVec.ofNat 32 (r % 2^28 + 0x3a000000 + (r/2^31)*2^31) 
  else if k = 14 then BitVec.ofNat 32 (r % 2^24 + (r/2^31)*2^31) else
   #[0x0#32,0x80000000#32,0x7f800000#32,0xff800000#32,0x7fc00000#32,0x3f800000#32,0x7f7fffff#32,0x1#32][r % 8]!
def rnd64 (s t : Nat) : BitVec 64 :=
  let k := s % 16
  let r := (s / 2^20) % 2^32 + 2^32 * ((t/2^20) % 2^32)
  if k < 8 then BitVec.ofNat 64 r else if k < 14 then BitVec.ofNat 64 (r % 2^58 + 0x3d00000000000000 + (r/2^63)*2^63) 
  else if k = 14 then BitVec.ofNat 64 (r % 2^53 + (r/2^63)*2^63) else
   #[0x0#64,0x8000000000000000#64,0x7ff0000000000000#64,0xfff0000000000000#64,0x7ff8000000000000#64,0x3ff0000000000000#64,0x7fefffffffffffff#64,0x1#64][r % 8]!
def go (n : Nat) : IO Unit := do
  let mut s := 12345
  let mut bad := 0
  for _ in [0:n] do
    s := lcg s; let x := rnd32 s; s := lcg s; let y := rnd32 s
    let c (nm : String) (a b : BitVec 32) : IO Nat := do
      if same32 a b then pure 0 else
        IO.println s!"{nm} {x.toHex} {y.toHex}: {a.toHex} {b.toHex}"; pure 1
    bad := bad + (← c "add" (binary32.add x y) (b32 (f32 x + f32 y)))
    bad := bad + (← c "sub" (binary32.sub x y) (b32 (f32 x - f32 y)))
    bad := bad + (← c "mul" (binary32.mul x y) (b32 (f32 x * f32 y)))
    bad := bad + (← c "div" (binary32.div x y) (b32 (f32 x / f32 y)))
    bad := bad + (← c "sqrt" (binary32.sqrt x) (b32 (f32 x).sqrt))
    bad := bad + (← c "floor" (binary32.roundInt .down x) (b32 (f32 x).floor))
    bad := bad + (← c "ceil" (binary32.roundInt .up x) (b32 (f32 x).ceil))
    if binary32.ltb x y != decide (f32 x < f32 y) || binary32.leb x y != decide (f32 x ≤ f32 y) || binary32.eqb x y != (f32 x == f32 y) then
      IO.println s!"cmp {x.toHex} {y.toHex}"; bad := bad + 1
    s := lcg s; let a := s; s := lcg s; let X := rnd64 a s;  s := lcg s; let a := s; s := lcg s; let Y := rnd64 a s
    let d (nm : String) (a b : BitVec 64) : IO Nat := do
      if same64 a b then pure 0 else
        IO.println s!"{nm} {X.toHex} {Y.toHex}: {a.toHex} {b.toHex}"; pure 1
    bad := bad + (← d "add" (binary64.add X Y) (b64 (f64 X + f64 Y)))
    bad := bad + (← d "sub" (binary64.sub X Y) (b64 (f64 X - f64 Y)))
    bad := bad + (← d "mul" (binary64.mul X Y) (b64 (f64 X * f64 Y)))
    bad := bad + (← d "div" (binary64.div X Y) (b64 (f64 X / f64 Y)))
    bad := bad + (← d "sqrt" (binary64.sqrt X) (b64 (f64 X).sqrt))
    bad := bad + (← d "widen" (widen x) (b64 (f32 x).toFloat))
    bad := bad + (← c "narrow" (narrow X) (b32 (f64 X).toFloat32))
  IO.println s!"bad {bad}"
#eval go 20000
