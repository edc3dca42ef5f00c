/-!
# Python outcomes

Exceptions are values.  `nonfinite` is not a Python exception: it marks a run in which numpy divides by zero and
carries on with `nan`/`inf` entries, i.e. the code returns but not numbers.
-/

namespace Verif

/-- Outcome of a Python call that did not produce a (finite) value. -/
inductive PyErr
  /-- `RuntimeError` raised explicitly by the code -/
  | runtime
  /-- `KeyError` -/
  | key
  /-- `AttributeError` -/
  | attribute
  /-- `UnboundLocalError` -/
  | unbound
  /-- `TypeError` -/
  | type
  /-- `ValueError` -/
  | value
  /-- `ZeroDivisionError` -/
  | zeroDiv
  /-- `numpy.linalg.LinAlgError` -/
  | linAlg
  /-- `RecursionError` / endless recursion -/
  | recursion
  /-- `IndexError` -/
  | index
  /-- `nan` or `inf` appears in the results (not an exception) -/
  | nonfinite
  deriving DecidableEq, Repr

end Verif
