import Verif.Model.Util

/-!
# The curves as text

The functions of resdx/util.py that write a fitted curve as a formula. Texts are lists of characters. Python's number format `:.4g` is a parameter `fmt`.
-/

namespace Resdx.Formulas

/-- A text. -/
abbrev Text := List Char

variable {K : Type}

/-- `linear_string`, resdx/util.py:65-66. -/
def linearString (fmt : K → Text) (x : Text) (c0 c1 : K) : Text :=
  fmt c0 ++ [' ', '+', ' '] ++ fmt c1 ++ ['*'] ++ x

/-- `quadratic_string`, resdx/util.py:73-74. -/
def quadraticString (fmt : K → Text) (x : Text) (c0 c1 c2 : K) : Text :=
  fmt c0 ++ [' ', '+', ' '] ++ fmt c1 ++ ['*'] ++ x ++ [' ', '+', ' '] ++ fmt c2 ++ ['*'] ++ x ++ ['^', '2']

/-- `cubic_string`, resdx/util.py:81-82. -/
def cubicString (fmt : K → Text) (x : Text) (c0 c1 c2 c3 : K) : Text :=
  fmt c0 ++ [' ', '+', ' '] ++ fmt c1 ++ ['*'] ++ x ++ [' ', '+', ' '] ++ fmt c2 ++ ['*'] ++ x ++ ['^', '2']
    ++ [' ', '+', ' '] ++ fmt c3 ++ ['*'] ++ x ++ ['^', '3']

/-- `quartic_string`, resdx/util.py:90-91. -/
def quarticString (fmt : K → Text) (x : Text) (c0 c1 c2 c3 c4 : K) : Text :=
  fmt c0 ++ [' ', '+', ' '] ++ fmt c1 ++ ['*'] ++ x ++ [' ', '+', ' '] ++ fmt c2 ++ ['*'] ++ x ++ ['^', '2']
    ++ [' ', '+', ' '] ++ fmt c3 ++ ['*'] ++ x ++ ['^', '3'] ++ [' ', '+', ' '] ++ fmt c4 ++ ['*'] ++ x ++ ['^', '4']

/-- `exponential_string`, resdx/util.py:98-99. -/
def exponentialString (fmt : K → Text) (x : Text) (c0 c1 c2 : K) : Text :=
  fmt c0 ++ [' ', '+', ' '] ++ fmt c1 ++ ['^', '('] ++ fmt c2 ++ ['*'] ++ x ++ [')']

end Resdx.Formulas
