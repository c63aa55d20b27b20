import Verif.Model.Rational
import Mathlib.Algebra.Order.Field.Rat

/-!
# Specification vocabulary for rational numbers

What a `rational_number_t` denotes, its canonical form, and arithmetic expressions over ℚ.
-/

namespace Verif.Rational
open Verif

/-- Canonical representation: positive denominator, both members in the `int` range, lowest terms
(for a non-zero numerator). -/
structure WF (r : Rational) : Prop where
  num_lo : intMin ≤ r.num
  num_hi : r.num ≤ intMax
  den_pos : 0 < r.den
  den_hi : r.den ≤ intMax
  coprime : r.num ≠ 0 → Nat.gcd r.num.natAbs r.den.natAbs = 1

/-- The number denoted by a rational. -/
def val (r : Rational) : ℚ := (r.num : ℚ) / (r.den : ℚ)

/-- An integer of magnitude at most `INT_MAX`. -/
def Fits (x : Int) : Prop := -2147483647 ≤ x ∧ x ≤ 2147483647

instance (x : Int) : Decidable (Fits x) := inferInstanceAs (Decidable (_ ∧ _))

/-- Arithmetic expressions a user can write over rational numbers. -/
inductive Expr where
  | int (n : Int)
  | frac (n d : Int)
  | add (a b : Expr)
  | sub (a b : Expr)
  | mul (a b : Expr)
  | div (a b : Expr)
  | neg (a : Expr)
  | intSub (n : Int) (a : Expr)

/-- What the expression means mathematically; `none` if it divides by zero. -/
def Expr.denote : Expr → Option ℚ
  | .int n => some n
  | .frac n d => if d = 0 then none else some ((n : ℚ) / d)
  | .add a b => do return (← a.denote) + (← b.denote)
  | .sub a b => do return (← a.denote) - (← b.denote)
  | .mul a b => do return (← a.denote) * (← b.denote)
  | .div a b => do
      let x ← a.denote
      let y ← b.denote
      if y = 0 then none else some (x / y)
  | .neg a => do return - (← a.denote)
  | .intSub n a => do return (n : ℚ) - (← a.denote)

/-- What the code computes for the expression (operands left to right). -/
def Expr.eval : Expr → Outcome Rational
  | .int n => (chk n).bind fun n => .ok (ofInt n)
  | .frac n d => (chk n).bind fun n => (chk d).bind fun d => mk n d
  | .add a b => a.eval.bind fun x => b.eval.bind fun y => Rational.add x y
  | .sub a b => a.eval.bind fun x => b.eval.bind fun y => Rational.sub x y
  | .mul a b => a.eval.bind fun x => b.eval.bind fun y => Rational.mul x y
  | .div a b => a.eval.bind fun x => b.eval.bind fun y => Rational.div x y
  | .neg a => a.eval.bind fun x => Rational.neg x
  | .intSub n a => (chk n).bind fun n => a.eval.bind fun x => Rational.intSub n x

end Verif.Rational
