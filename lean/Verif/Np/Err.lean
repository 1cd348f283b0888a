/-!
# Python exceptions as values

The model returns `Except Err α` where the python code may raise.
-/

namespace Verif

/-- Python exception classes that matter for the control flow of qsonic.
`qsonic` is `qsonic.QsonicException` (py/qsonic/__init__.py), `exception` is a plain
`Exception(...)` raised by qsonic itself, `systemExit` is not a subclass of `Exception`.
py/qsonic/__init__.py:6-7, py/qsonic/mpi_utils.py:36, 96. -/
inductive Err
  | exception
  | qsonic
  | indexError
  | valueError
  | keyError
  | runtimeError
  | typeError
  | attributeError
  | osError
  | assertionError
  | zeroDivisionError
  | systemExit (code : Int)
  deriving DecidableEq, Repr

/-- `except Exception:` catches everything but `SystemExit`
(`KeyboardInterrupt` is not modelled). py/qsonic/mpi_utils.py:96. -/
def Err.isException : Err → Bool
  | .systemExit _ => false
  | _ => true

instance {ε α : Type} [DecidableEq ε] [DecidableEq α] : DecidableEq (Except ε α) := fun a b =>
  match a, b with
  | .ok x, .ok y => if h : x = y then isTrue (by rw [h]) else isFalse (by simpa using h)
  | .error x, .error y => if h : x = y then isTrue (by rw [h]) else isFalse (by simpa using h)
  | .ok _, .error _ => isFalse (by simp)
  | .error _, .ok _ => isFalse (by simp)

end Verif
