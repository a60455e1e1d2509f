import Mathlib.Algebra.Order.Field.Basic
import Mathlib.Algebra.Order.AbsoluteValue.Basic

/-!
# Reading a formula

How someone reads a formula such as `1.5 + -0.02*x + 0.1*x^2` or `1 + 2^(0.5*x)`: spaces separate terms and plus signs, a term is a number, a number times
a variable, a number times a power of a variable, or a number raised to a bracketed product.
-/

namespace Resdx.Spec

/-- A text cut at every occurrence of a character. -/
def pieces (sep : Char) : List Char → List (List Char)
  | [] => [[]]
  | c :: cs =>
    if c = sep then [] :: pieces sep cs
    else match pieces sep cs with
      | [] => [[c]]
      | p :: ps => (c :: p) :: ps

/-- What a reader knows: the numbers written as texts, the values of the variables, and powers with any exponent. -/
structure Reader (K : Type) where
  /-- the number a text stands for -/
  number : List Char → Option K
  /-- the value of the variable of that name -/
  variable_ : List Char → Option K
  /-- powers -/
  power : K → K → Option K

variable {K : Type} [Field K]

/-- The value of a whole exponent. -/
def wholeExponent : List Char → Option ℕ
  | ['2'] => some 2
  | ['3'] => some 3
  | ['4'] => some 4
  | _ => none

/-- The value of `x` or `x^k`. -/
def readPower (R : Reader K) (t : List Char) : Option K :=
  match pieces '^' t with
  | [x] => R.variable_ x
  | [x, k] => do return (← R.variable_ x) ^ (← wholeExponent k)
  | _ => none

/-- The value of `c`, `c*x` or `c*x^k`. -/
def readProduct (R : Reader K) (t : List Char) : Option K :=
  match pieces '*' t with
  | [c] => R.number c
  | [c, p] => do return (← R.number c) * (← readPower R p)
  | _ => none

/-- The value of a term: also `b^(c*x)`. -/
def readTerm (R : Reader K) (t : List Char) : Option K :=
  match pieces '(' t with
  | [b, e] =>
    match b.getLast?, e.getLast? with
    | some '^', some ')' => do R.power (← R.number b.dropLast) (← readProduct R e.dropLast)
    | _, _ => none
  | _ => readProduct R t

/-- The value of terms separated by plus signs. -/
def readSum (R : Reader K) : List (List Char) → Option K
  | [t] => readTerm R t
  | t :: ['+'] :: rest => do return (← readTerm R t) + (← readSum R rest)
  | _ => none

/-- The value of a formula. -/
def readFormula (R : Reader K) (t : List Char) : Option K := readSum R (pieces ' ' t)

/-- Texts without the characters that structure a formula. -/
def Plain (t : List Char) : Prop := ∀ c ∈ t, c ≠ ' ' ∧ c ≠ '*' ∧ c ≠ '^' ∧ c ≠ '(' ∧ c ≠ ')'

/-- A number format with four significant digits: the text of a number is plain, and is read as a number at most half a unit of the fourth digit away. -/
structure FourDigits [LinearOrder K] (fmt : K → List Char) (R : Reader K) (shown : K → K) : Prop where
  /-- no structure in the text of a number -/
  plain : ∀ c, Plain (fmt c)
  /-- what it is read as -/
  reads : ∀ c, R.number (fmt c) = some (shown c)
  /-- the rounding -/
  close : ∀ c, |shown c - c| ≤ 1 / 2000 * |c|

end Resdx.Spec
