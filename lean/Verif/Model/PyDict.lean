import Mathlib.Data.List.Sort

/-! # Python dictionaries and a heap of them

Insertion-ordered dictionaries as association lists, plus a heap addressed by
references, so that aliasing and in-place mutation are visible. -/

namespace PyCycle

/-- An insertion-ordered Python `dict` with string keys. -/
abbrev PyDict (V : Type) := List (String × V)

namespace PyDict
variable {V : Type}

/-- `d.get(k)`. -/
def get? (d : PyDict V) (k : String) : Option V := List.lookup k d

/-- `list(d.keys())`. -/
def keys (d : PyDict V) : List String := d.map Prod.fst

/-- `d[k] = v`: overwrite in place, or append. -/
def setItem : PyDict V → String → V → PyDict V
  | [], k, v => [(k, v)]
  | (k', v') :: d, k, v => if k' = k then (k', v) :: d else (k', v') :: setItem d k v

/-- `d.update(e)`. -/
def update (d e : PyDict V) : PyDict V := e.foldl (fun d kv => d.setItem kv.1 kv.2) d

/-- `sorted(d.keys())`. -/
def sortedKeys (d : PyDict V) : List String :=
  d.keys.insertionSort (· ≤ ·)

end PyDict

/-- The Python heap restricted to dictionaries; a reference is an index. -/
abbrev DictHeap (V : Type) := List (PyDict V)

/-- Errors raised by the modelled Python code. -/
inductive PyErr
  | keyError | valueError | typeError | nameError | attributeError | indexError
  deriving DecidableEq, Repr

namespace DictHeap
variable {V : Type}

/-- `d.copy()`: allocate a new dictionary with the same items; return its reference. -/
def copy (h : DictHeap V) (r : Nat) : Except PyErr (DictHeap V × Nat) :=
  match h[r]? with
  | none => .error .attributeError
  | some d => .ok (h ++ [d], h.length)

/-- `d.update(e)` through references: mutates the dictionary `r` in place. -/
def updateAt (h : DictHeap V) (r s : Nat) : Except PyErr (DictHeap V) :=
  match h[r]?, h[s]? with
  | some d, some e => .ok (h.set r (d.update e))
  | _, _ => .error .attributeError

end DictHeap
end PyCycle
