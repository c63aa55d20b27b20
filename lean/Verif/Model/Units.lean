import Mathlib.Analysis.SpecialFunctions.Pow.Real

/-!
# Quantities with units (`core_dimensional.hpp`)

The exponents of the units are template parameters of type `int`; here they are part of the value, and an
expression that the compiler rejects is `none`.
-/

namespace Verif.Units

/-- core_dimensional.hpp:93-95, 267 `dimensional_value_t<C, G, S, double>`. -/
@[ext] structure Quantity where
  c : ℤ
  g : ℤ
  s : ℤ
  value : ℝ

/-- A template argument of type `int`: the compiler rejects a constant that is not in the range, be it by
overflow or by a narrowing conversion. -/
def intArg (x : ℤ) : Option ℤ := if -2 ^ 31 ≤ x ∧ x < 2 ^ 31 then some x else none

/-- core_dimensional.hpp:108-111 `operator+`: for the same dimensions only. -/
def Quantity.add (a b : Quantity) : Option Quantity :=
  if a.c = b.c ∧ a.g = b.g ∧ a.s = b.s then some { a with value := a.value + b.value } else none

/-- core_dimensional.hpp:121-124 `operator-`. -/
def Quantity.sub (a b : Quantity) : Option Quantity :=
  if a.c = b.c ∧ a.g = b.g ∧ a.s = b.s then some { a with value := a.value - b.value } else none

/-- core_dimensional.hpp:168-171 `operator-` with one operand. -/
def Quantity.neg (a : Quantity) : Quantity := { a with value := -a.value }

/-- core_dimensional.hpp:138-142 `operator*`. -/
def Quantity.mul (a b : Quantity) : Option Quantity := do
  let c ← intArg (a.c + b.c)
  let g ← intArg (a.g + b.g)
  let s ← intArg (a.s + b.s)
  some ⟨c, g, s, a.value * b.value⟩

/-- core_dimensional.hpp:156-160 `operator/`; 207-210 for the same dimensions, where the result is a plain
number, the same as a quantity without dimensions. -/
noncomputable def Quantity.div (a b : Quantity) : Option Quantity :=
  if a.c = b.c ∧ a.g = b.g ∧ a.s = b.s then some ⟨0, 0, 0, a.value / b.value⟩
  else do
    let c ← intArg (a.c - b.c)
    let g ← intArg (a.g - b.g)
    let s ← intArg (a.s - b.s)
    some ⟨c, g, s, a.value / b.value⟩

/-- core_dimensional.hpp:227-231, one of the exponents in `pow<N, D>`: the product `C * N` is an `int`; it is
converted to `unsigned` since `D` is one; remainder and quotient are those of `unsigned`; the quotient becomes
an argument of type `int`.  A division by `D = 0` is rejected. -/
def powArg (c n : ℤ) (d : ℕ) : Option ℤ := do
  let p ← intArg (c * n)
  let u := (p % 2 ^ 32).toNat
  if d ≠ 0 ∧ u % d = 0 then intArg (u / d : ℕ) else none

/-- core_dimensional.hpp:224-235 `pow`. -/
noncomputable def Quantity.pow (a : Quantity) (n : ℤ) (d : ℕ) : Option Quantity := do
  let c ← powArg a.c n d
  let g ← powArg a.g n d
  let s ← powArg a.s n d
  some ⟨c, g, s, a.value ^ ((n : ℝ) / d)⟩

end Verif.Units
