"""Writes the error-tracking steps (`Tr` lemmas) of straight-line float code as Lean text.

Not part of the proof: Lean checks every number that this script proposes."""
from fractions import Fraction as Fr

U = Fr(1, 2**24)
ETA = Fr(1, 2**150)

def up(q, bits=12):
    """q rounded up to a dyadic number with few bits"""
    q = Fr(q)
    if q == 0: return q
    k = 0
    while q * 2**k < 2**(bits-1): k += 1
    while q * Fr(1, 2**(-k) if k < 0 else 1) / (2**k if k < 0 else 1) >= 2**bits and False: k -= 1
    n = -((-q * 2**k) // 1)
    while n % 2 == 0 and k > 0: n //= 2; k -= 1
    return Fr(n, 2**k)

def lit(q):
    q = Fr(q)
    if q.denominator == 1: return str(q.numerator)
    k = q.denominator.bit_length() - 1
    if q.denominator == 2**k: return f"{q.numerator}/2^{k}"
    return f"{q.numerator}/{q.denominator}"

class Ctx:
    def __init__(self, ind="  ", pre="t"):
        self.lines = []; self.n = 0; self.ind = ind; self.pre = pre
    def name(self):
        self.n += 1; return f"{self.pre}{self.n}"
    def emit(self, s): self.lines.append(self.ind + s)
    def text(self): return "\n".join(self.lines) + "\n"

class T:
    def __init__(self, ctx, h, e, B): self.ctx, self.h, self.e, self.B = ctx, h, Fr(e), Fr(B)
    def add(self, o, op="add", D=None, hD=None):
        c = self.ctx; nm = c.name()
        D0 = self.B + o.B if D is None else Fr(D)
        D0 = up(D0) if D is None else D0
        E = up(self.e + o.e + U * (D0 + self.e + o.e))
        fn = op if hD is None else op + "_of"
        pf = "(by norm_num)" if hD is None else hD
        c.emit(f"have {nm} := Tr.{fn} (D := {lit(D0)}) (E := {lit(E)}) {self.h} {o.h} {pf} (by norm_num) (by norm_num)")
        return T(c, nm, E, D0)
    def sub(self, o, D=None, hD=None): return self.add(o, "sub", D, hD)
    def mul(self, o, D=None, hD=None):
        c = self.ctx; nm = c.name()
        D0 = up(self.B * o.B) if D is None else Fr(D)
        x = self.e * o.B + o.e * self.B + self.e * o.e
        E = up(x + U * (D0 + x) + ETA)
        fn = "mul" if hD is None else "mul_of"
        pf = "(by norm_num)" if hD is None else hD
        c.emit(f"have {nm} := Tr.{fn} (D := {lit(D0)}) (E := {lit(E)}) {self.h} {o.h} {pf} (by norm_num) (by norm_num)")
        return T(c, nm, E, D0)

def const(ctx, fn, txt, val=None):
    """the constant `fn txt` (fn = litF or litD); val: exact value as Fraction"""
    import struct
    v = Fr(txt) if val is None else Fr(val)
    f = Fr(struct.unpack('f', struct.pack('f', float(v)))[0])
    nm = ctx.name()
    ctx.emit(f"have {nm} := Tr.const (x := {fn} {wrap(txt)}) ({lit(f)}) ({lit(up(abs(f)))}) (by decide +kernel) (by norm_num)")
    return T(ctx, nm, 0, up(abs(f)))

def wrap(t): return f"({t})" if t.startswith("-") else t
