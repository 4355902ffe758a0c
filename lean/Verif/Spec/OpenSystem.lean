import Verif.Spec.Evolution
import Mathlib.LinearAlgebra.Matrix.PosDef
import Mathlib.Analysis.Complex.Basic
import Mathlib.Analysis.Complex.Order

/-
Open systems: density matrices, channels and Lindblad generators, for C71.

A superoperator is a matrix whose rows and columns are numbered by pairs; the pair `(i, j)` stands
for the entry `i, j` of a density matrix.  (QuTiP numbers the pairs by stacking columns; that is a
numbering of the same pairs.)
-/

open Matrix
open scoped ComplexOrder

namespace QTrl.Spec

variable {n : Type} [Fintype n] [DecidableEq n]

/-- What a superoperator does to an operator. -/
def act (S : Matrix (n × n) (n × n) ℂ) (ρ : Matrix n n ℂ) : Matrix n n ℂ :=
  fun i j => ∑ p, ∑ q, S (i, j) (p, q) * ρ p q

/-- What it does to one part of a composite system with another part `a`. -/
def actBeside {a : Type} (S : Matrix (n × n) (n × n) ℂ) (ρ : Matrix (n × a) (n × a) ℂ) :
    Matrix (n × a) (n × a) ℂ :=
  fun x y => ∑ p, ∑ q, S (x.1, y.1) (p, q) * ρ (p, x.2) (q, y.2)

/-- A density matrix. -/
structure IsState (ρ : Matrix n n ℂ) : Prop where
  posSemidef : ρ.PosSemidef
  trace : ρ.trace = 1

/-- A quantum channel: completely positive and preserving the trace. -/
structure IsChannel (S : Matrix (n × n) (n × n) ℂ) : Prop where
  positive : ∀ (a : Type) [Fintype a] (ρ : Matrix (n × a) (n × a) ℂ), ρ.PosSemidef →
    (actBeside S ρ).PosSemidef
  trace : ∀ ρ, (act S ρ).trace = ρ.trace

/-- The Lindblad generator with Hamiltonian `H` and collapse operators `Cs`. -/
structure IsLindblad (M : Matrix (n × n) (n × n) ℂ) (H : Matrix n n ℂ)
    (Cs : List (Matrix n n ℂ)) : Prop where
  hermitian : H.IsHermitian
  eq : ∀ ρ, act M ρ = -Complex.I • (H * ρ - ρ * H) +
    (Cs.map fun C => C * ρ * Cᴴ - (1 / 2 : ℂ) • (Cᴴ * C * ρ + ρ * (Cᴴ * C))).sum

/-- An open system driven by amplitudes: the drift of each slot is a Lindblad generator; each
control is the commutator with a Hamiltonian, or a Lindblad generator with an amplitude that is
not negative. -/
def OpenSystem {m D : Type} [Fintype m] [DecidableEq m] (S : Dyn.Sys (n × n) m D)
    (amps : Dyn.Amps) : Prop :=
  ∀ k, k < S.nTs → 0 ≤ S.tau k ∧ (∃ H Cs, IsLindblad (S.drift k) H Cs) ∧
    ∀ j, j < S.nCtrls → (∃ H, IsLindblad (S.ctrl k j) H []) ∨
      (0 ≤ amps k j ∧ ∃ H Cs, IsLindblad (S.ctrl k j) H Cs)

/-- The operator in a column of a vectorised operator. -/
def unvec {m : Type} (X : Matrix (n × n) m ℂ) (x : m) : Matrix n n ℂ := fun i j => X (i, j) x

end QTrl.Spec
