import Verif.Model.Outcome

/-!
# Rational numbers (`src/core_rational.hpp`)

`int` is modelled by `Int` with an explicit range check: leaving `[-2^31, 2^31-1]` is `ub`.
`unsigned int` arithmetic in `gcd` is modelled by `Nat`; the final product wraps mod `2^32`.
-/

namespace Verif.Rational
open Verif

/-- Value range of a 32-bit `int`. -/
def intMin : Int := -2147483648
def intMax : Int := 2147483647

/-- The result of an `int` operation whose mathematical value is `x`
(signed overflow is undefined behaviour). -/
def chk (x : Int) : Outcome Int :=
  if intMin ≤ x ∧ x ≤ intMax then .ok x else .ub

/-- `core_rational.hpp:208-213`: first loop of `gcd`, strips common factors of two.
Diverges on `0,0` (both stay even forever). -/
def gcdStrip (a b d : Nat) : Outcome (Nat × Nat × Nat) :=
  if a = 0 ∧ b = 0 then .diverges
  else if a % 2 = 0 ∧ b % 2 = 0 then gcdStrip (a / 2) (b / 2) (d + 1)
  else .ok (a, b, d)
termination_by a + b
decreasing_by omega

/-- `core_rational.hpp:214-220`: second loop of `gcd`.  With exactly one operand zero the loop
never reaches equality: it diverges. -/
def gcdLoop (a b : Nat) : Outcome Nat :=
  if a = b then .ok a
  else if a = 0 ∨ b = 0 then .diverges
  else if a % 2 = 0 then gcdLoop (a / 2) b
  else if b % 2 = 0 then gcdLoop a (b / 2)
  else if a > b then gcdLoop ((a - b) / 2) b
  else gcdLoop a ((b - a) / 2)
termination_by a + b
decreasing_by all_goals omega

/-- Conversion of an `unsigned int` value to `int` (two's complement). -/
def toInt32 (x : Nat) : Int :=
  if x % 4294967296 < 2147483648 then ((x % 4294967296 : Nat) : Int)
  else ((x % 4294967296 : Nat) : Int) - 4294967296

/-- `core_rational.hpp:204-222` `gcd`: `a * (1 << d)`; shifting the `int` literal by 31 or more
is treated as `ub`. -/
def gcd (a b : Nat) : Outcome Int :=
  (gcdStrip a b 0).bind fun r =>
  (gcdLoop r.1 r.2.1).bind fun g =>
  if r.2.2 ≥ 31 then .ub else .ok (toInt32 (g * 2 ^ r.2.2))

/-- `std::abs(int)`; `abs(INT_MIN)` is undefined. -/
def absInt (x : Int) : Outcome Nat :=
  if x = intMin then .ub else .ok x.natAbs

/-- `core_rational.hpp:224-225`: the data members. -/
structure Rational where
  num : Int
  den : Int
deriving DecidableEq, Repr

/-- `core_rational.hpp:184-197` `reduce`. `/=` is truncating division. -/
def reduce (num den : Int) : Outcome Rational :=
  ( if num ≠ 0 then
      (absInt num).bind fun a =>
      (absInt den).bind fun b =>
      (gcd a b).bind fun g =>
      if g = 0 then .ub else
      (chk (num.tdiv g)).bind fun n =>
      (chk (den.tdiv g)).bind fun d =>
      .ok (n, d)
    else .ok (num, den) ).bind fun p =>
  if p.2 < 0 then
    (chk (p.1 * -1)).bind fun n =>
    (chk (p.2 * -1)).bind fun d =>
    .ok ⟨n, d⟩
  else .ok ⟨p.1, p.2⟩

/-- `core_rational.hpp:57-66`: constructor from numerator and denominator. -/
def mk (num den : Int) : Outcome Rational :=
  if den = 0 then .throws .invalidArgument else reduce num den

/-- `core_rational.hpp:56`: constructor from an `int`. -/
def ofInt (n : Int) : Rational := ⟨n, 1⟩

/-- `core_rational.hpp:73-80` `operator+`. -/
def add (r s : Rational) : Outcome Rational :=
  (chk (r.num * s.den)).bind fun ad =>
  (chk (r.den * s.num)).bind fun bc =>
  (chk (ad + bc)).bind fun n =>
  (chk (r.den * s.den)).bind fun d =>
  mk n d

/-- `core_rational.hpp:85-92` `operator-`. -/
def sub (r s : Rational) : Outcome Rational :=
  (chk (r.num * s.den)).bind fun ad =>
  (chk (r.den * s.num)).bind fun bc =>
  (chk (ad - bc)).bind fun n =>
  (chk (r.den * s.den)).bind fun d =>
  mk n d

/-- `core_rational.hpp:97-104` `operator*`. -/
def mul (r s : Rational) : Outcome Rational :=
  (chk (r.num * s.num)).bind fun n =>
  (chk (r.den * s.den)).bind fun d =>
  mk n d

/-- `core_rational.hpp:108-115` `operator/`. -/
def div (r s : Rational) : Outcome Rational :=
  (chk (r.num * s.den)).bind fun n =>
  (chk (r.den * s.num)).bind fun d =>
  mk n d

/-- `core_rational.hpp:69` unary minus. -/
def neg (r : Rational) : Outcome Rational :=
  (chk (-r.num)).bind fun n => mk n r.den

/-- `core_rational.hpp:250` `operator-(int, rational)`: `-b + a`. -/
def intSub (a : Int) (b : Rational) : Outcome Rational :=
  (neg b).bind fun nb => add nb (ofInt a)

/-- `core_rational.hpp:118-121` `operator==`. -/
def eq (r s : Rational) : Bool := r.num == s.num && r.den == s.den

/-- `core_rational.hpp:124-127` `operator!=`. -/
def ne (r s : Rational) : Bool := r.num != s.num || r.den != s.den

/-- `core_rational.hpp:130-133` `operator<`. -/
def lt (r s : Rational) : Outcome Bool := (sub r s).bind fun t => .ok (decide (t.num < 0))
/-- `core_rational.hpp:136-139` `operator>`. -/
def gt (r s : Rational) : Outcome Bool := (sub r s).bind fun t => .ok (decide (t.num > 0))
/-- `core_rational.hpp:142-145` `operator<=`. -/
def le (r s : Rational) : Outcome Bool := (sub r s).bind fun t => .ok (decide (t.num ≤ 0))
/-- `core_rational.hpp:148-151` `operator>=`. -/
def ge (r s : Rational) : Outcome Bool := (sub r s).bind fun t => .ok (decide (t.num ≥ 0))

/-- `core_rational.hpp:153-156` `is_integral`. -/
def isIntegral (r : Rational) : Bool := r.den == 1 || r.num == 0

/-- `core_rational.hpp:158-169` `as_integral`. -/
def asIntegral (r : Rational) : Outcome Int :=
  if isIntegral r then .ok r.num else .throws .logicError

/-! ## The iteration counter of a time step -/

/-- `subprog_binary.cpp:264-277`, `subprog_cloud.cpp:682-695`: effect of one time step on the
iteration counter.  `advance` adds one (`subprog_binary_scheme.cpp:891`, `subprog_cloud.cpp:546`);
order 1 is a single `advance`; order 2 is `s0 * b0 + s2 * (1 - b0)` with `b0 = 1/2`, where `s2` is
`advance (advance s0)`.  Other orders throw. -/
def stepIteration (rkOrder : Int) (it : Rational) : Outcome Rational :=
  if rkOrder = 1 then add it (ofInt 1)
  else if rkOrder = 2 then
    (mk 1 2).bind fun b0 =>
    (add it (ofInt 1)).bind fun s1 =>
    (add s1 (ofInt 1)).bind fun s2 =>
    (mul it b0).bind fun l =>
    (intSub 1 b0).bind fun w =>
    (mul s2 w).bind fun r =>
    add l r
  else .throws .invalidArgument

/-- `n` consecutive time steps. -/
def runIterations (rkOrder : Int) : Nat → Rational → Outcome Rational
  | 0, it => .ok it
  | n + 1, it => (runIterations rkOrder n it).bind (stepIteration rkOrder)

end Verif.Rational
