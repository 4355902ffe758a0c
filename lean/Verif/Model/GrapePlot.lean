import Verif.Model.Basic
import Verif.Model.Grape

/-
Model of `plot_grape_control_fields` (grape.py 51-89) as a recording of what is asked of
matplotlib.

Conventions
* A figure is the list of its axes, an axis what was set on it last and the lines drawn on it.
* Font sizes, the size of the figure and `tight_layout` are left out.
* matplotlib checks that both arrays of a line have the same length, numpy that an array whose
  largest entry is asked for is not empty.
-/

namespace QTrl.Grape

/-- What `step(times, ys, lw=…, color=…, alpha=…)` draws (grape.py 85). -/
structure Line where
  xs : List ℝ
  ys : List ℝ
  width : ℝ
  color : String
  alpha : ℝ

/-- The state of one of the axes. -/
structure Axis where
  ylabel : Option String
  xlabel : Option String
  xlim : Option (ℝ × ℝ)
  ylim : Option (ℝ × ℝ)
  lines : List Line

/-- An axis as `plt.subplots` creates it (grape.py 73). -/
def Axis.new : Axis := ⟨none, none, none, none, []⟩

/-- What a line drawn by `step` shows at a time: `where` is not given (grape.py 85), so it is
`"pre"`, which makes the value at each point hold from the point before up to it. Nothing is
drawn before the first and after the last point. -/
noncomputable def Line.shown (l : Line) (t : ℝ) : Option ℝ :=
  if t < l.xs.headD 0 then none
  else ((l.xs.zip l.ys).find? fun p => decide (t ≤ p.1)).map Prod.snd

/-- The arguments: `u` and its shape `(R, J, M)` are given separately. -/
structure PlotArgs where
  times : List ℝ
  u : Arr
  R : Nat
  J : Nat
  M : Nat
  labels : List String
  uniform : Bool

/-- All entries of `u`. -/
def PlotArgs.entries (a : PlotArgs) : List ℝ :=
  (List.range a.R).flatMap fun r => (List.range a.J).flatMap fun j =>
    (List.range a.M).map fun m => a.u r j m

/-- `abs(u).max()` (grape.py 74): ValueError if `u` is empty. -/
noncomputable def PlotArgs.yMax (a : PlotArgs) : Except PyErr ℝ :=
  match a.entries.map abs with
  | [] => .error .valueError
  | x :: xs => .ok (xs.foldl max x)

/-- What is done to axis `j` in pass `r` (grape.py 77-87). -/
noncomputable def PlotArgs.draw (a : PlotArgs) (yMax : ℝ) (r j : Nat) (ax : Axis) :
    Except PyErr Axis :=
  let styled : Except PyErr (Axis × ℝ × String × ℝ) :=
    if r = a.R - 1 then
      match a.labels[j]? with
      | none => .error .indexError
      | some label =>
          match a.times.getLast? with
          | none => .error .indexError
          | some t =>
              .ok ({ ax with ylabel := some label, xlabel := some "$t$", xlim := some (0, t) },
                2.0, "k", 1.0)
    else .ok (ax, 0.5, "b", 0.25)
  match styled with
  | .error e => .error e
  | .ok (ax, lw, lc, alpha) =>
      if a.times.length ≠ a.M then .error .valueError
      else
        let ax := { ax with
          lines := ax.lines ++ [⟨a.times, (List.range a.M).map (a.u r j), lw, lc, alpha⟩] }
        if a.uniform then .ok { ax with ylim := some (-yMax, yMax) } else .ok ax

/-- The loops (grape.py 75-87). -/
noncomputable def PlotArgs.loops (a : PlotArgs) (yMax : ℝ) : Except PyErr (List Axis) :=
  (List.range a.R).foldlM (fun axes r =>
    (List.range a.J).foldlM (fun (axes : List Axis) j =>
      match a.draw yMax r j (axes.getD j Axis.new) with
      | .error e => .error e
      | .ok ax => .ok (axes.set j ax)) axes) (List.replicate a.J Axis.new)

/-- `plot_grape_control_fields` (grape.py 51-89): the axes returned.  `plt.subplots` raises
ValueError for a grid without rows. -/
noncomputable def PlotArgs.plot (a : PlotArgs) : Except PyErr (List Axis) :=
  if a.J = 0 then .error .valueError
  else
    match a.yMax with
    | .error e => .error e
    | .ok y => a.loops y

end QTrl.Grape
