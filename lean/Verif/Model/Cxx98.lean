import Verif.Model.Builds

/-!
# `log2` compiled before C++11

detail/math.hpp calls `std::log2` only when `__cplusplus >= 201103L`.  The test that is meant to provide `::log2` otherwise
(`__STDC_VERSION__ >= 199901L`, detail/math.hpp:278) asks for a macro that C++ compilers do not define, so older language
modes compile the expression in the `#else` branch (detail/math.hpp:271-272).
-/

namespace Nova
open FP

namespace Cxx98

/-- `const float rlog2 = 1.f/std::log(2.f)` (detail/math.hpp:271): a `float` whatever the type of the argument -/
def rlog2 (M : Libm 32) : BitVec 32 := binary32.div (binary32.ofInt 1) (M.log (binary32.ofInt 2))

/-- `log2<float>` (detail/math.hpp:265-274): `std::log(arg) * rlog2` -/
def log2Float (M : Libm 32) (arg : BitVec 32) : BitVec 32 := binary32.mul (M.log arg) (rlog2 M)

/-- `log2<double>` (detail/math.hpp:265-274): the `float` constant is converted to `double` -/
def log2Double (M : Libm 64) (Mf : Libm 32) (arg : BitVec 64) : BitVec 64 :=
  binary64.mul (M.log arg) (widen (rlog2 Mf))

/-- A platform whose compiler uses a language mode before C++11 (detail/math.hpp:265-292). -/
def float (P : Platform 32) : Platform 32 := { P with M := { P.M with log2 := log2Float P.M } }

/-- A platform whose compiler uses a language mode before C++11 (detail/math.hpp:265-292); `Mf` are the functions of the
C library for `float`. -/
def double (P : Platform 64) (Mf : Libm 32) : Platform 64 := { P with M := { P.M with log2 := log2Double P.M Mf } }

end Cxx98
end Nova
