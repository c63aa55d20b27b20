import Verif.Model.Outcome

/-!
# Standard library text formatting and parsing used by the code

Strings are lists of characters.  These are models of the C++ standard library (trusted to describe
`operator<<` on `size_t`, `std::setw`/`std::setfill('0')`, `%0Nd`, `std::stoi`, `std::string::find`,
`substr` and `erase`), not of code in /repo.
-/

namespace Verif.Text
open Verif

/-- `std::string`. -/
abbrev Str := List Char

/-- The decimal digit `d < 10`. -/
def digitChar (d : Nat) : Char := Char.ofNat (48 + d)

/-- Decimal output of an unsigned integer. -/
def showNat (n : Nat) : Str :=
  if n < 10 then [digitChar n] else showNat (n / 10) ++ [digitChar (n % 10)]
termination_by n
decreasing_by omega

/-- Output with `std::setfill('0') << std::setw(w)`, or `%0wd` of a non-negative number. -/
def pad (w : Nat) (s : Str) : Str := List.replicate (w - s.length) '0' ++ s

/-- `isspace` in the C locale. -/
def isSpace (c : Char) : Bool := c == ' ' || (9 ≤ c.toNat && c.toNat ≤ 13)

/-- A decimal digit. -/
def isDigit (c : Char) : Bool := 48 ≤ c.toNat && c.toNat ≤ 57

/-- Value of a string of digits. -/
def digitsVal (s : Str) : Nat := s.foldl (fun v c => 10 * v + (c.toNat - 48)) 0

/-- An optional sign: whether it is a minus, and the rest. -/
def splitSign (s : Str) : Bool × Str :=
  match s with
  | '-' :: r => (true, r)
  | '+' :: r => (false, r)
  | r => (false, r)

/-- `std::stoi`: leading white space, an optional sign, then digits; the rest is ignored. -/
def stoi (s : Str) : Outcome Int :=
  let p := splitSign (s.dropWhile isSpace)
  let ds := p.2.takeWhile isDigit
  if ds = [] then .throws .invalidArgument
  else
    let v : Int := if p.1 then -(digitsVal ds : Int) else digitsVal ds
    if v < -2 ^ 31 ∨ 2 ^ 31 - 1 < v then .throws .outOfRange else .ok v

/-- `s.substr(0, s.find(c))`: the whole string if `c` does not occur. -/
def before (c : Char) (s : Str) : Str := s.takeWhile (· ≠ c)

/-- `s.erase(0, s.find(c) + 1)`: if `c` does not occur then `npos + 1` wraps to zero and nothing is
erased. -/
def eraseThrough (c : Char) (s : Str) : Str :=
  if c ∈ s then (s.dropWhile (· ≠ c)).drop 1 else s

end Verif.Text
