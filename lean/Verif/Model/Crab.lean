import Verif.Model.PulseGen

/-
The CRAB pulse generators (pulsegen.py 967-1323) and the part of the CRAB optimiser that
exchanges coefficients with them (optimizer.py 1045-1172).

Simplifications: amplitudes are finite; logging is omitted except where it raises; nan
bounds are not modelled (`initBounds` treats them as an error); broadcasting of one-element
guess and ramping pulses is not modelled (only equal lengths are accepted).
-/

namespace QTrl.Pulse

/-- A two-dimensional numpy array of floats. -/
structure Arr2 where
  rows : ℕ
  cols : ℕ
  val : ℕ → ℕ → ℝ

/-- `a.ravel().tolist()` (pulsegen.py 1122) -/
def Arr2.ravel (a : Arr2) : List ℝ :=
  (List.range a.rows).flatMap fun i => (List.range a.cols).map fun j => a.val i j

/-- `l.reshape([rows, cols])` (pulsegen.py 1135-1137): raises ValueError unless the sizes
agree. -/
def reshape (l : List ℝ) (rows cols : ℕ) : Except PyErr Arr2 :=
  if l.length = rows * cols then .ok ⟨rows, cols, fun i j => l.getD (i * cols + j) 0⟩
  else .error .valueError

/-- `guess_pulse_add` / `guess_pulse_modulate` (pulsegen.py 1153-1159). -/
inductive GuessFunc where
  | add
  | modulate

/-- `_bound_scale_cond` with `_bound_mean` and `_bound_scale`; `unset` before `_init_bounds`
has run. -/
inductive BoundCond where
  | unset
  | noBounds
  | all (mean scale : ℝ)
  | gtMean (mean scale : ℝ)
  | ltMean (mean scale : ℝ)

/-- The attributes of `PulseGenCrabFourier` (pulsegen.py 991-1018, 1250-1263).  `dim` is
`parent.get_drift_dim()` for a generator with a Dynamics parent. -/
structure Crab where
  base : Base
  dim : Option ℕ
  numCoeffs : Option ℕ
  numBasis : ℕ
  numOptimVars : ℕ
  coeffs : Option Arr2
  randomizeCoeffs : Bool
  fixFreqs : Bool
  freqs : Option (List ℝ)
  randomizeFreqs : Bool
  guessAction : Option String
  guessPulse : Option (List ℝ)
  guessFunc : Option GuessFunc
  ramping : Option (List ℝ)
  cond : BoundCond

/-- `PulseGenCrabFourier.__init__` with `reset` (pulsegen.py 991-1018, 1250-1263). -/
def Crab.fresh (b : Base) (dim numCoeffs : Option ℕ) (fixFreqs : Bool) : Crab :=
  { base := { b with usesTime := true, time := none }, dim := dim, numCoeffs := numCoeffs,
    numBasis := if fixFreqs then 2 else 3, numOptimVars := 0, coeffs := none,
    randomizeCoeffs := true, fixFreqs := fixFreqs, freqs := none, randomizeFreqs := true,
    guessAction := some "MODULATE", guessPulse := none, guessFunc := none, ramping := none,
    cond := .unset }

/-- `estimate_num_coeffs` (pulsegen.py 1103-1113); `dim - 1` is an integer subtraction but
the maximum with 2 makes truncation harmless. -/
def estimateNumCoeffs (dim : ℕ) : ℕ := max 2 (dim - 1)

/-- The number of coefficients settled by `init_coeffs` (pulsegen.py 1060-1071); zero counts
as not given. -/
def Crab.settleNum (g : Crab) (arg : Option ℕ) : ℕ :=
  let n := match arg with
    | some (k + 1) => k + 1
    | _ => g.numCoeffs.getD 0
  if n = 0 then
    match g.dim with
    | some d => estimateNumCoeffs d
    | none => 4
  else n

/-- `set_coeffs` (pulsegen.py 1134-1137). -/
def Crab.setCoeffs (g : Crab) (vals : List ℝ) : Except PyErr Crab :=
  match reshape vals (g.numCoeffs.getD 0) g.numBasis with
  | .error e => .error e
  | .ok a => .ok { g with coeffs := some a }

/-- `init_coeffs` (pulsegen.py 1045-1101); `rnd i j` are the random numbers drawn. -/
def Crab.initCoeffs (g : Crab) (numArg : Option ℕ) (init : Option (List ℝ)) (rnd : ℕ → ℕ → ℝ) :
    Except PyErr Crab :=
  let n := g.settleNum numArg
  let g1 := { g with numCoeffs := some n, numOptimVars := n * g.numBasis }
  match init with
  | some v => g1.setCoeffs v
  | none =>
      .ok { g1 with coeffs := some ⟨n, g.numBasis, fun i j =>
        if g.randomizeCoeffs then (2 * rnd i j - 1) * g.base.scaling else g.base.scaling⟩ }

/-- `init_guess_pulse` (pulsegen.py 1139-1151), called if there is a guess pulse.  A missing
or unknown action is meant to be logged and ignored, but `logger.WARN` does not exist, so
AttributeError is raised. -/
def Crab.initGuess (g : Crab) : Except PyErr Crab :=
  match g.guessPulse with
  | none => .ok g
  | some _ =>
      match g.guessAction with
      | none => .error .attributeError
      | some a =>
          if pyUpper a = "MODULATE" then .ok { g with guessFunc := some .modulate }
          else if pyUpper a = "ADD" then .ok { g with guessFunc := some .add }
          else .error .attributeError

/-- `np.amax` / `np.amin` of a list. -/
def maxOf : List ℝ → Except PyErr ℝ
  | [] => .error .valueError
  | x :: xs => .ok (xs.foldl max x)

def minOf : List ℝ → Except PyErr ℝ
  | [] => .error .valueError
  | x :: xs => .ok (xs.foldl min x)

/-- `get_guess_pulse_scale` (pulsegen.py 1199-1206). -/
def Crab.guessScale (g : Crab) : Except PyErr ℝ :=
  match g.guessPulse with
  | none => .ok 0
  | some p =>
      match maxOf p, minOf p with
      | .ok M, .ok m => .ok (max (M - m) M)
      | .error e, _ => .error e
      | _, .error e => .error e

open Classical in
/-- `_init_bounds` (pulsegen.py 1161-1197), after `init_pulse` has dropped infinite bounds. -/
noncomputable def Crab.initBounds (g : Crab) : Except PyErr BoundCond :=
  match g.base.lbound, g.base.ubound with
  | none, none => .ok .noBounds
  | none, some (.fin u) =>
      if u > 0 then .ok (.gtMean 0 u)
      else
        match g.guessScale with
        | .error e => .error e
        | .ok gs =>
            let scale := g.base.scaling * (g.numCoeffs.getD 0) + gs
            .ok (.gtMean (-|scale| + u) scale)
  | some (.fin l), none =>
      if l < 0 then .ok (.ltMean 0 |l|)
      else
        match g.guessScale with
        | .error e => .error e
        | .ok gs =>
            let scale := g.base.scaling * (g.numCoeffs.getD 0) + gs
            .ok (.ltMean (|scale| + l) scale)
  | some (.fin l), some (.fin u) => .ok (.all (0.5 * (u + l)) (0.5 * (u - l)))
  | _, _ => .error .notImplementedError

/-- `init_freqs` (pulsegen.py 1275-1287): the Fourier harmonics plus a random offset. -/
noncomputable def Crab.initFreqs (g : Crab) (rnd : ℕ → ℝ) : List ℝ :=
  (List.range (g.numCoeffs.getD 0)).map fun (i : ℕ) =>
    2 * Real.pi / g.base.pulseTime * (i + 1) + (if g.randomizeFreqs then rnd i - 0.5 else 0)

/-- `PulseGenCrabFourier.init_pulse` (pulsegen.py 1020-1037, 1265-1273).  A zero pulse time
raises ZeroDivisionError in `init_freqs`. -/
noncomputable def Crab.init (g : Crab) (numArg : Option ℕ) (init : Option (List ℝ))
    (rndC : ℕ → ℕ → ℝ) (rndF : ℕ → ℝ) : Except PyErr Crab :=
  match g.base.init with
  | .error e => .error e
  | .ok b =>
      match ({ g with base := b } : Crab).initCoeffs numArg init rndC with
      | .error e => .error e
      | .ok g1 =>
          match g1.initGuess with
          | .error e => .error e
          | .ok g2 =>
              match g2.initBounds with
              | .error e => .error e
              | .ok c =>
                  match pyDiv 1 g2.base.pulseTime with
                  | .error e => .error e
                  | .ok _ => .ok { g2 with cond := c, freqs := some (g2.initFreqs rndF) }

open Classical in
/-- `_apply_bounds` (pulsegen.py 1208-1230), element by element. -/
noncomputable def boundAt : BoundCond → ℝ → ℝ
  | .all mean scale, p => Real.tanh p * scale + mean
  | .gtMean mean scale, p => if p > mean then Real.tanh p * scale + mean else p
  | .ltMean mean scale, p => if p < mean then Real.tanh p * scale + mean else p
  | _, p => p

/-- `_apply_bounds`: the attribute `_bound_scale_cond` must exist. -/
noncomputable def BoundCond.apply (c : BoundCond) (pulse : List ℝ) : Except PyErr (List ℝ) :=
  match c with
  | .unset => .error .attributeError
  | c => .ok (pulse.map (boundAt c))

/-- Elementwise combination of two arrays of the same length. -/
def zipArr (f : ℝ → ℝ → ℝ) (a b : List ℝ) : Except PyErr (List ℝ) :=
  if a.length = b.length then .ok (List.zipWith f a b) else .error .valueError

/-- `self.guess_pulse_func(pulse)` if set (pulsegen.py 1318-1319). -/
def Crab.applyGuess (g : Crab) (pulse : List ℝ) : Except PyErr (List ℝ) :=
  match g.guessFunc with
  | none => .ok pulse
  | some f =>
      match g.guessPulse with
      | none => .error .typeError
      | some q =>
          match f with
          | .add => zipArr (fun p q => p + q) pulse q
          | .modulate => zipArr (fun p q => (1 + p) * q) pulse q

/-- `_apply_ramping_pulse` if set (pulsegen.py 289-295, 1320-1321). -/
def Crab.applyRamp (g : Crab) (pulse : List ℝ) : Except PyErr (List ℝ) :=
  match g.ramping with
  | none => .ok pulse
  | some q => zipArr (fun p q => p * q) pulse q

/-- Term `i` of the Fourier series (pulsegen.py 1309-1316). -/
noncomputable def crabWave (fixFreqs : Bool) (freqs : List ℝ) (a : Arr2) (i : ℕ) (t : ℝ) : ℝ :=
  let phase := if fixFreqs then freqs.getD i 0 * t else a.val i 2 * t
  a.val i 0 * Real.sin phase + a.val i 1 * Real.cos phase

/-- `PulseGenCrabFourier.gen_pulse()` (pulsegen.py 1289-1323) of an initialised generator,
called without the argument `coeffs`. -/
noncomputable def Crab.gen (g : Crab) : Except PyErr (List ℝ) :=
  match g.coeffs, g.freqs, g.base.time with
  | some a, some fr, some t =>
      let n := g.numCoeffs.getD 0
      if 0 < n ∧ (a.rows < n ∨ a.cols < (if g.fixFreqs then 2 else 3)) then .error .indexError
      else
        match addWaves t ((List.range n).map (crabWave g.fixFreqs fr a))
            (List.replicate g.base.numTslots 0) with
        | .error e => .error e
        | .ok p =>
            match g.applyGuess p with
            | .error e => .error e
            | .ok p1 =>
                match g.applyRamp p1 with
                | .error e => .error e
                | .ok p2 => g.cond.apply p2
  | _, _, _ => .error .typeError

/-- The truth value of a numpy array in `if coeffs:` (pulsegen.py 1301): ambiguous
(ValueError) unless it has one element. -/
noncomputable def Arr2.truth (a : Arr2) : Except PyErr Bool :=
  open Classical in
  if a.rows * a.cols = 1 then .ok (decide (a.val 0 0 ≠ 0)) else .error .valueError

/-- `gen_pulse(coeffs)` with an array argument (pulsegen.py 1301-1302). -/
noncomputable def Crab.genWith (g : Crab) (a : Arr2) : Except PyErr (Crab × List ℝ) :=
  match a.truth with
  | .error e => .error e
  | .ok t =>
      let g' := if t then { g with coeffs := some a } else g
      match g'.gen with
      | .error e => .error e
      | .ok p => .ok (g', p)

/-! ### The CRAB optimiser's variables -/

/-- `OptimizerCrab._get_optim_var_vals` (optimizer.py 1122-1136): the coefficients of all
generators, one after the other. -/
def collect : List Crab → Except PyErr (List ℝ)
  | [] => .ok []
  | g :: gs =>
      match g.coeffs with
      | none => .error .attributeError
      | some a =>
          match collect gs with
          | .error e => .error e
          | .ok r => .ok (a.ravel ++ r)

/-- The loop of `OptimizerCrab._get_ctrl_amps` (optimizer.py 1160-1169): generator after
generator takes its slice of the variables and generates its pulse.  The slices are
`vals[st:end]`, shorter if the array ends before. -/
noncomputable def distribute (vals : List ℝ) : ℕ → List Crab →
    Except PyErr (List Crab × List (List ℝ))
  | _, [] => .ok ([], [])
  | st, g :: gs =>
      match g.setCoeffs ((vals.drop st).take g.numOptimVars) with
      | .error e => .error e
      | .ok g' =>
          match g'.gen with
          | .error e => .error e
          | .ok p =>
              match distribute vals (st + g.numOptimVars) gs with
              | .error e => .error e
              | .ok (gs', ps) => .ok (g' :: gs', p :: ps)

end QTrl.Pulse
