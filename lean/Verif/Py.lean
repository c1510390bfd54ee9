import Mathlib.Data.Real.Basic

/-!
# Python exceptions and numpy list helpers used by the model

Numbers are exact reals (see DESIGN.md, trusted base). One-dimensional numpy
arrays are lists.
-/

namespace Weac

/-- Exceptions that the modelled code can raise. -/
inductive PyErr where
  | valueError
  | keyError
  | indexError
  | typeError
  | attributeError
  | unboundLocalError
  | linAlgError
  | runtimeError
  | zeroDivisionError
  | overflowError
  deriving DecidableEq, Repr

/-- Outcome of a call that does not touch the object: a value or an exception. -/
abbrev Res (α : Type) := Except PyErr α

/-- `np.cumsum` of a one-dimensional array. -/
def cumsum (l : List ℝ) : List ℝ := (l.scanl (· + ·) 0).tail

/-- `a[i]` for an index that the code has made sure is in range; the default
value `0` is never reached from such positions. -/
def nth (l : List ℝ) (i : ℕ) : ℝ := l.getD i 0

end Weac
