import Verif.Model.Outcome
import Mathlib.Data.Real.Sqrt

/-!
# Numbers that may be not-a-number

Recovery of the gas in `physics_srhd.hpp` and `physics_euler.hpp`, and the check of the binary program, in an arithmetic that has NaN.
-/

namespace Verif.Nan

/-- The operations of `double` that occur below. `sq x` is `std::pow(x, 2)`, `lit` gives the constants of the source. -/
class Arith (F : Type) extends Add F, Sub F, Mul F, Div F where
  sqrt : F → F
  abs : F → F
  sq : F → F
  lt : F → F → Prop
  le : F → F → Prop
  isNan : F → Prop
  lit : ℚ → F

/-- What IEEE 754 says of NaN: operations on NaN give NaN, and comparisons with NaN are false.  Nothing is assumed about other numbers. -/
class Ieee (F : Type) extends Arith F where
  add_nan : ∀ {a b : F}, isNan a ∨ isNan b → isNan (a + b)
  sub_nan : ∀ {a b : F}, isNan a ∨ isNan b → isNan (a - b)
  mul_nan : ∀ {a b : F}, isNan a ∨ isNan b → isNan (a * b)
  div_nan : ∀ {a b : F}, isNan a ∨ isNan b → isNan (a / b)
  sqrt_nan : ∀ {a : F}, isNan a → isNan (sqrt a)
  abs_nan : ∀ {a : F}, isNan a → isNan (abs a)
  sq_nan : ∀ {a : F}, isNan a → isNan (sq a)
  lt_nan : ∀ {a b : F}, isNan a ∨ isNan b → ¬lt a b
  le_nan : ∀ {a b : F}, isNan a ∨ isNan b → ¬le a b

export Arith (sqrt abs sq lt le isNan lit)

section
variable {F : Type} [Arith F]

open Classical in
/-- `std::min(a, b)`: `b` if `b < a`, else `a`. -/
noncomputable def least (a b : F) : F := if lt b a then b else a

open Classical in
/-- `std::max(a, b)`: `b` if `a < b`, else `a`. -/
noncomputable def greatest (a b : F) : F := if lt a b then b else a

/-- Five numbers. -/
abbrev Vec (F : Type) := Fin 5 → F

/-- physics_srhd.hpp:396-402 with the momentum `SS` (384-387): the numbers of a pass of the loop. -/
structure Pass (F : Type) where
  v2 : F
  W : F
  f : F
  g : F

/-- physics_srhd.hpp:396-405. -/
noncomputable def pass (U : Vec F) (gm p : F) : Pass F :=
  let D := U 0
  let tau := U 4
  let SS := U 1 * U 1 + U 2 * U 2 + U 3 * U 3
  let v2 := least (SS / sq (tau + D + p)) (lit (1 - 1 / 10000000000))
  let W2 := lit 1 / (lit 1 - v2)
  let W := sqrt W2
  let e := (tau + D * (lit 1 - W) + p * (lit 1 - W2)) / (D * W)
  let d := D / W
  let h := lit 1 + e + p / d
  let cs2 := gm * p / (d * h)
  ⟨v2, W, d * e * (gm - lit 1) - p, v2 * cs2 - lit 1⟩

open Classical in
/-- physics_srhd.hpp:394-415: the loop, with at most `n` further passes.  Result: whether a solution was found, the pressure and `W0`. -/
noncomputable def loop (U : Vec F) (gm : F) : ℕ → F → Bool × F × F
  | 0, p => (false, p, lit 1)
  | n + 1, p =>
    let x := pass U gm p
    let p' := p - x.f / x.g
    if lt (abs x.f) (lit (1 / 10000000000)) then (true, p', x.W) else loop U gm n p'

open Classical in
/-- physics_srhd.hpp:417-451: the state, and the four checks. -/
noncomputable def finish (U : Vec F) (T : F) (found : Bool) (p W0 : F) : Outcome (Vec F) :=
  let p := if lt (lit 0) T then greatest p (T * U 0 / W0) else p
  let P : Vec F := ![U 0 / W0, W0 * U 1 / (U 4 + U 0 + p), W0 * U 2 / (U 4 + U 0 + p), W0 * U 3 / (U 4 + U 0 + p), p]
  if found = false then .throws .invalidArgument
  else if le (P 0) (lit 0) then .throws .invalidArgument
  else if le (P 4) (lit 0) then .throws .invalidArgument
  else if isNan W0 then .throws .invalidArgument
  else .ok P

/-- physics_srhd.hpp:364-451 `recover_primitive`. -/
noncomputable def recover (U : Vec F) (gm T : F) : Outcome (Vec F) :=
  let r := loop U gm 50 (lit 0)
  finish U T r.1 r.2.1 r.2.2

open Classical in
/-- physics_euler.hpp:555-575 `recover_primitive`. -/
noncomputable def eulerRecover (U : Vec F) (gm T : F) : Vec F :=
  let d := U 0
  let p := (U 4 - lit (1 / 2) * (U 1 * U 1 + U 2 * U 2 + U 3 * U 3) / d) * (gm - lit 1)
  ![d, U 1 / d, U 2 / d, U 3 / d, if lt p (lit 0) ∧ lt (lit 0) T then T * d else p]

open Classical in
/-- subprog_binary_scheme.cpp:726-752 `validate_u`, 758-784 `validate_q`: of the densities of the cells of each block. -/
noncomputable def validate (blocks : List (List F)) : Outcome (List (List F)) :=
  if ∃ b ∈ blocks, ∃ d ∈ b, lt d (lit 0) then .throws .runtimeError else .ok blocks

end

/-! ## Real numbers with infinities and NaN -/

/-- Exact arithmetic with the special values of IEEE 754; there is one zero, whose reciprocal is `+inf`. -/
inductive Ext where
  | nan
  | inf (negative : Bool)
  | fin (x : ℝ)

namespace Ext

open Classical

noncomputable def neg : Ext → Ext
  | .nan => .nan
  | .inf s => .inf !s
  | .fin x => .fin (-x)

noncomputable def add : Ext → Ext → Ext
  | .fin x, .fin y => .fin (x + y)
  | .inf s, .inf t => if s = t then .inf s else .nan
  | .inf s, .fin _ => .inf s
  | .fin _, .inf s => .inf s
  | .nan, _ => .nan
  | .inf _, .nan => .nan
  | .fin _, .nan => .nan

noncomputable def mul : Ext → Ext → Ext
  | .fin x, .fin y => .fin (x * y)
  | .inf s, .inf t => .inf (s ^^ t)
  | .inf s, .fin x => if x = 0 then .nan else .inf (s ^^ decide (x < 0))
  | .fin x, .inf s => if x = 0 then .nan else .inf (s ^^ decide (x < 0))
  | .nan, _ => .nan
  | .inf _, .nan => .nan
  | .fin _, .nan => .nan

noncomputable def div : Ext → Ext → Ext
  | .fin x, .fin y => if y = 0 then if x = 0 then .nan else .inf (decide (x < 0)) else .fin (x / y)
  | .inf _, .inf _ => .nan
  | .inf s, .fin x => .inf (s ^^ decide (x < 0))
  | .fin _, .inf _ => .fin 0
  | .nan, _ => .nan
  | .inf _, .nan => .nan
  | .fin _, .nan => .nan

noncomputable def root : Ext → Ext
  | .nan => .nan
  | .inf s => if s then .nan else .inf false
  | .fin x => if x < 0 then .nan else .fin (Real.sqrt x)

noncomputable def size : Ext → Ext
  | .nan => .nan
  | .inf _ => .inf false
  | .fin x => .fin |x|

def less : Ext → Ext → Prop
  | .fin x, .fin y => x < y
  | .inf true, .inf false => True
  | .inf true, .fin _ => True
  | .fin _, .inf false => True
  | _, _ => False

def lessEq : Ext → Ext → Prop
  | .fin x, .fin y => x ≤ y
  | .inf true, .inf _ => True
  | .inf false, .inf false => True
  | .inf true, .fin _ => True
  | .fin _, .inf false => True
  | _, _ => False

noncomputable instance : Ieee Ext where
  add := add
  sub a b := add a (neg b)
  mul := mul
  div := div
  sqrt := root
  abs := size
  sq a := mul a a
  lt := less
  le := lessEq
  isNan a := a = .nan
  lit q := .fin q
  add_nan {a b} h := by rcases h with rfl | rfl; · rfl
                        · cases a <;> rfl
  sub_nan {a b} h := by rcases h with rfl | rfl; · rfl
                        · cases a <;> rfl
  mul_nan {a b} h := by rcases h with rfl | rfl; · rfl
                        · cases a <;> rfl
  div_nan {a b} h := by rcases h with rfl | rfl; · rfl
                        · cases a <;> rfl
  sqrt_nan h := by subst h; rfl
  abs_nan h := by subst h; rfl
  sq_nan h := by subst h; rfl
  lt_nan {a b} h := by
    rcases h with rfl | rfl
    · simp [less]
    · cases a <;> simp [less]
  le_nan {a b} h := by
    rcases h with rfl | rfl
    · simp [lessEq]
    · cases a <;> simp [lessEq]

end Ext

end Verif.Nan
