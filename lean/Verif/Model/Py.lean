import Mathlib.Data.List.Sort

/-!
# Python values used by the model

Exceptions, insertion-ordered dictionaries and stable sorting.  These are models of CPython
built-ins that the code in `/repo` relies on (not of a particular line of `/repo`).
-/

namespace Sumo

/-- The exceptions the modelled code can raise (Python exceptions, plus the C++
`std::runtime_error`, `std::invalid_argument`, `std::out_of_range` that Cython turns into
`RuntimeError`, `ValueError`, `IndexError`).  Two are no exceptions: `undefined` marks C++ code whose behaviour is
undefined (a read outside a buffer), and `terminated` the end of the Python process (`std::terminate`), see `unguarded`. -/
inductive PyErr
  | keyError | valueError | typeError | attributeError | unboundLocalError
  | assertionError | indexError | ioError | runtimeError | recursionError
  | zeroDivisionError
  | structError
  | parseError
  | systemExit
  | undefined
  | terminated
  deriving DecidableEq, Repr

/-- A C++ function called from Cython through a declaration without `except +`: Cython generates no handler, so a C++
exception leaves the `noexcept` C frames of the interpreter and the process is terminated.  Behaviour that is undefined
stays undefined. -/
def unguarded {α : Type} : Except PyErr α → Except PyErr α
  | .ok a => .ok a
  | .error .undefined => .error .undefined
  | .error _ => .error .terminated

/-- A `cdef` or `cpdef` function with a C result and no `except` clause, compiled by the Cython the project requires (0.27.3,
`sumo-api/requirements.txt:1`): the caller has no way to see a Python exception, so Cython prints it, discards it and returns
the zero of the result type (`none` here: the body raised). -/
def unraisable {α : Type} (zero : α) : Option α → α
  | some a => a
  | none => zero

/-- A Python `dict` (insertion ordered since 3.7): the list of its items in order.
The invariant "no key twice" is a separate theorem (`Dict.NodupKeys`), preserved by `set` and
`pop`. -/
abbrev Dict (κ υ : Type) := List (κ × υ)

namespace Dict
variable {κ υ : Type}

/-- `d.keys()` -/
def keys (d : Dict κ υ) : List κ := d.map Prod.fst

/-- `d.values()` -/
def values (d : Dict κ υ) : List υ := d.map Prod.snd

variable [DecidableEq κ]

/-- `d.get(k)` : the value of `k`, or `none`. -/
def get? : Dict κ υ → κ → Option υ
  | [], _ => none
  | (k', v) :: d, k => if k' = k then some v else get? d k

/-- `d[k]` : raises `KeyError` if absent. -/
def get (d : Dict κ υ) (k : κ) : Except PyErr υ :=
  match d.get? k with
  | some v => .ok v
  | none => .error .keyError

/-- `k in d` -/
def has (d : Dict κ υ) (k : κ) : Bool := (d.get? k).isSome

/-- `d[k] = v` : overwrite in place if `k` is present, else append. -/
def set : Dict κ υ → κ → υ → Dict κ υ
  | [], k, v => [(k, v)]
  | (k', v') :: d, k, v => if k' = k then (k, v) :: d else (k', v') :: set d k v

/-- `d.pop(k)` for a key known to be present (the code only pops keys it has just listed). -/
def pop : Dict κ υ → κ → Dict κ υ
  | [], _ => []
  | (k', v') :: d, k => if k' = k then d else (k', v') :: pop d k

/-- The representation invariant of a Python dict. -/
def NodupKeys (d : Dict κ υ) : Prop := d.keys.Nodup

end Dict

/-- Python's `sorted(l, key=key)` / `l.sort(key=key)`: stable, ascending. -/
def pySorted {α κ : Type} [LinearOrder κ] (key : α → κ) (l : List α) : List α :=
  l.insertionSort (fun a b => key a ≤ key b)

/-- Python's `sorted(l, key=key, reverse=True)`: descending, and still stable (elements with equal
keys keep their order). -/
def pySortedRev {α κ : Type} [LinearOrder κ] (key : α → κ) (l : List α) : List α :=
  l.insertionSort (fun a b => key b ≤ key a)

end Sumo
