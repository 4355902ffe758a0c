/-
Shared vocabulary of the model: Python exceptions as values and Python `for`
loops over `range(n)` as folds.
-/

universe u

namespace QTrl

/-- The Python exceptions raised in the modelled code.  `usageError` is
`qutip_qtrl.errors.UsageError` (errors.py 20-40); the others are the built-in
Python ones. -/
inductive PyErr where
  | typeError
  | valueError
  | attributeError
  | indexError
  | keyError
  | zeroDivisionError
  | nameError
  | unboundLocalError
  | notImplementedError
  | runtimeError
  | usageError
  deriving DecidableEq, Repr

/-- `for k in range(n): body`, the loop shape used throughout the code.  The
body receives the loop index and the (functional copy of the) mutable state. -/
def forRange {σ : Type u} (n : Nat) (body : Nat → σ → σ) (s : σ) : σ :=
  (List.range n).foldl (fun s k => body k s) s

/-- `for k in range(n - 1, -1, -1): body`, the descending loop of
`recompute_evolution` (tslotcomp.py 311-326). -/
def forDown {σ : Type u} (n : Nat) (body : Nat → σ → σ) (s : σ) : σ :=
  (List.range n).reverse.foldl (fun s k => body k s) s

/-- `str.lower` and `str.upper`, for ASCII letters (Python also maps other letters;
all option names compared with in the code are ASCII). -/
def pyLower (s : String) : String := String.ofList (s.toList.map Char.toLower)
def pyUpper (s : String) : String := String.ofList (s.toList.map Char.toUpper)

end QTrl
