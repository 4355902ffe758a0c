import Verif.Model.Flt
import Mathlib.Analysis.SpecialFunctions.Trigonometric.Basic
import Mathlib.Algebra.Order.Floor.Ring
import Mathlib.Analysis.SpecialFunctions.Pow.Real

/-
The pulse generators of pulsegen.py (except CRAB, see Model/Crab.lean).

Simplifications: finite floats are exact reals (the float32 rounding of the default `tau`
is ignored); `apply_params` (setting attributes from a dictionary, pulsegen.py 186-199) is
represented by the state of a generator being arbitrary; logging and `print` are omitted.
Random numbers are a parameter: `rnd i` is the `i`-th number drawn in the call.
-/

namespace QTrl.Pulse

/-- The attributes common to all generators (pulsegen.py 152-184). -/
structure Base where
  numTslots : ℕ
  pulseTime : ℝ
  scaling : ℝ
  offset : ℝ
  tau : Option (List ℝ)
  usesTime : Bool
  time : Option (List ℝ)
  initialised : Bool
  lbound : Option Flt
  ubound : Option Flt

/-- `PulseGen.reset` (pulsegen.py 157-184) with a parent Dynamics object, whose timeslot
attributes are the arguments. -/
def Base.ofDyn (numTslots : ℕ) (evoTime scaling offset : ℝ) (tau : List ℝ) (usesTime : Bool) :
    Base :=
  { numTslots := numTslots, pulseTime := evoTime, scaling := scaling, offset := offset,
    tau := some tau, usesTime := usesTime, time := none, initialised := false,
    lbound := none, ubound := none }

/-- `PulseGen.reset` without a Dynamics object (pulsegen.py 169-174). -/
def Base.default (usesTime : Bool) : Base :=
  { numTslots := 100, pulseTime := 1, scaling := 1, offset := 0, tau := none,
    usesTime := usesTime, time := none, initialised := false, lbound := none, ubound := none }

/-- The loop `time[k + 1] = time[k] + tau[k]` (pulsegen.py 236-239): `n` entries starting
at `t`; only the first `n - 1` durations are read. -/
def timeLoop : ℕ → ℝ → List ℝ → Except PyErr (List ℝ)
  | 0, _, _ => .ok []
  | 1, t, _ => .ok [t]
  | _ + 2, _, [] => .error .indexError
  | n + 2, t, d :: ds =>
      match timeLoop (n + 1) (t + d) ds with
      | .error e => .error e
      | .ok r => .ok (t :: r)

/-- `if x is not None: if np.isinf(x): x = None` (pulsegen.py 243-248). -/
def dropInf : Option Flt → Option Flt
  | none => none
  | some b => if b.isInf then none else some b

/-- The check `ubound < lbound` (pulsegen.py 250-252). -/
noncomputable def boundsInverted : Option Flt → Option Flt → Bool
  | some lb, some ub => ub.lt lb
  | _, _ => false

/-- The default `tau` (pulsegen.py 229-234). -/
noncomputable def Base.tauOrDefault (g : Base) : List ℝ :=
  match g.tau with
  | some t => t
  | none => List.replicate g.numTslots (g.pulseTime / g.numTslots)

/-- `PulseGen.init_pulse` (pulsegen.py 225-252).  When it raises, the attributes set
before the raise are kept; the model returns only the exception, and no theorem uses the
state after one. -/
noncomputable def Base.init (g : Base) : Except PyErr Base :=
  match (if g.usesTime then (timeLoop g.numTslots 0 g.tauOrDefault).map some
          else .ok g.time) with
  | .error e => .error e
  | .ok time =>
      if boundsInverted (dropInf g.lbound) (dropInf g.ubound) then .error .valueError
      else .ok { g with tau := some g.tauOrDefault, time := time, initialised := true,
                        lbound := dropInf g.lbound, ubound := dropInf g.ubound }

/-- `if not self._pulse_initialised: self.init_pulse()`, at the head of most
`gen_pulse` methods (e.g. pulsegen.py 382-383). -/
noncomputable def Base.ensureInit (g : Base) : Except PyErr Base :=
  if g.initialised then .ok g else g.init

/-- `self.ubound is None or max_amp + self.offset <= self.ubound` (pulsegen.py 265). -/
noncomputable def upOk (ub : Option Flt) (maxAmp : Flt) (offset : ℝ) : Bool :=
  match ub with
  | none => true
  | some u => (maxAmp.add (.fin offset)).le u

/-- `self.lbound is None or min_amp + self.offset >= self.lbound` (pulsegen.py 266). -/
noncomputable def lowOk (lb : Option Flt) (minAmp : Flt) (offset : ℝ) : Bool :=
  match lb with
  | none => true
  | some l => l.le (minAmp.add (.fin offset))

/-- `PulseGen._apply_bounds_and_offset` (pulsegen.py 254-287). -/
noncomputable def applyBounds (lbound ubound : Option Flt) (offset : ℝ) (pulse : List Flt) :
    Except PyErr (List Flt) :=
  if lbound.isNone && ubound.isNone then .ok (pulse.map fun x => x.add (.fin offset))
  else
    match pyMax pulse, pyMin pulse with
    | .ok maxAmp, .ok minAmp =>
        if upOk ubound maxAmp offset && lowOk lbound minAmp offset then
          .ok (pulse.map fun x => x.add (.fin offset))
        else
          match lbound, ubound with
          | none, some u => .ok (pulse.map fun x => (x.add u).sub maxAmp)
          | some l, none => .ok (pulse.map fun x => (x.add l).sub minAmp)
          | some l, some u =>
              let boundRange := u.sub l
              let ampRange := maxAmp.sub minAmp
              let pulse' :=
                if boundRange.lt ampRange then
                  pulse.map fun x => (x.mul boundRange).div ampRange
                else pulse
              match pyMin pulse' with
              | .ok m => .ok (pulse'.map fun x => (x.add l).sub m)
              | .error e => .error e
          | none, none => .ok (pulse.map fun x => x.add (.fin offset))
    | .error e, _ => .error e
    | _, .error e => .error e

/-- `self._apply_bounds_and_offset(pulse)` for a pulse of finite amplitudes. -/
noncomputable def Base.finish (g : Base) (pulse : List ℝ) : Except PyErr (List Flt) :=
  applyBounds g.lbound g.ubound g.offset (pulse.map .fin)

/-! ### Zero and random -/

/-- `PulseGenZero.gen_pulse` (pulsegen.py 303-310).  Does not call `init_pulse`. -/
noncomputable def genZero (g : Base) : Except PyErr (List Flt) :=
  g.finish (List.replicate g.numTslots 0)

/-- `PulseGenRandom.gen_pulse` (pulsegen.py 323-332).  Does not call `init_pulse`. -/
noncomputable def genRandom (g : Base) (rnd : ℕ → ℝ) : Except PyErr (List Flt) :=
  g.finish ((List.range g.numTslots).map fun k => (2 * rnd k - 1) * g.scaling)

/-! ### Sums of random waves -/

/-- One component wave `amp * sin(2 pi t / wavelen + phase_off)` with
`amp = amp_scale * (r1 * 2 - 1)` and `phase_off = r2 * pi / 2` (pulsegen.py 398-400). -/
noncomputable def compWave (ampScale r1 r2 wavelen t : ℝ) : ℝ :=
  ampScale * (r1 * 2 - 1) * Real.sin (2 * Real.pi * t / wavelen + r2 * Real.pi / 2)

/-- `sum_wave += curr_wave` for arrays: in-place broadcasting accepts equal lengths or a
single-element right-hand side. -/
def addInto (sum wave : List ℝ) : Except PyErr (List ℝ) :=
  if wave.length = sum.length then .ok (List.zipWith (· + ·) sum wave)
  else match wave with
    | [w] => .ok (sum.map (· + w))
    | _ => .error .valueError

/-- The loop over component waves, each given as a function of time. -/
def addWaves (t : List ℝ) : List (ℝ → ℝ) → List ℝ → Except PyErr (List ℝ)
  | [], s => .ok s
  | w :: ws, s =>
      match addInto s (t.map w) with
      | .error e => .error e
      | .ok s' => addWaves t ws s'

/-- The loop `while wavelen > min_wavelen: wl.append(wavelen); wavelen = wavelen / 2`
(pulsegen.py 390-392), run for at most `fuel` tests of the condition; `none` means that the
condition still held then.  The program's loop terminates iff some fuel gives a result. -/
noncomputable def waveLens : ℕ → ℝ → ℝ → Option (List ℝ)
  | 0, _, _ => none
  | fuel + 1, wavelen, minWavelen =>
      open Classical in
      if minWavelen < wavelen then
        (waveLens fuel (wavelen / 2) minWavelen).map (wavelen :: ·)
      else some []

/-- `PulseGenRndFourier.gen_pulse` (pulsegen.py 367-403) with `min_wavelen` the value of
the attribute after the optional argument has been stored.  `none`: the `while` loop is
still running after `fuel` tests. -/
noncomputable def genRndFourier (fuel : ℕ) (g : Base) (minWavelen : ℝ) (rnd : ℕ → ℝ) :
    Option (Except PyErr (List Flt)) :=
  open Classical in
  if g.pulseTime < minWavelen then some (.error .valueError)
  else
    match g.ensureInit with
    | .error e => some (.error e)
    | .ok g' =>
        match waveLens fuel (2 * g'.pulseTime) minWavelen, g'.tau, g'.time with
        | none, _, _ => none
        | some wl, some tau, some t =>
            let ampScale := Real.sqrt 8 * g'.scaling / wl.length
            match addWaves t ((List.range wl.length).map fun i =>
                compWave ampScale (rnd (2 * i)) (rnd (2 * i + 1)) (wl.getD i 0))
                (List.replicate tau.length 0) with
            | .error e => some (.error e)
            | .ok s => some (g'.finish s)
        | _, _, _ => some (.error .attributeError)

/-- `PulseGenRndWaves.gen_pulse` (pulsegen.py 452-498), the parameters being the values of
the attributes after the optional arguments have been stored.  With `numCompWaves = 0`
numpy's division by zero gives an unused infinity, here `0`. -/
noncomputable def genRndWaves (g : Base) (numCompWaves : ℕ) (minWavelen maxWavelen : ℝ)
    (rnd : ℕ → ℝ) : Except PyErr (List Flt) :=
  open Classical in
  if g.pulseTime < minWavelen then .error .valueError
  else if maxWavelen ≤ minWavelen then .error .valueError
  else
    match g.ensureInit with
    | .error e => .error e
    | .ok g' =>
        match g'.tau, g'.time with
        | some tau, some t =>
            let wlRange := maxWavelen - minWavelen
            let ampScale := Real.sqrt 8 * g'.scaling / numCompWaves
            match addWaves t ((List.range numCompWaves).map fun i =>
                compWave ampScale (rnd (3 * i)) (rnd (3 * i + 1))
                  (minWavelen + rnd (3 * i + 2) * wlRange))
                (List.replicate tau.length 0) with
            | .error e => .error e
            | .ok s => g'.finish s
        | _, _ => .error .attributeError

/-! ### Random walks -/

/-- The loop of `PulseGenRndWalk1.gen_pulse` (pulsegen.py 542-544). -/
def walk1 (maxDAmp : ℝ) : ℕ → ℝ → (ℕ → ℝ) → List ℝ
  | 0, _, _ => []
  | n + 1, amp, rnd => amp :: walk1 maxDAmp n (amp + (rnd 0 * 2 - 1) * maxDAmp) (fun i => rnd (i + 1))

/-- `PulseGenRndWalk1.gen_pulse` (pulsegen.py 527-546). -/
noncomputable def genRndWalk1 (g : Base) (maxDAmp : ℝ) (rnd : ℕ → ℝ) : Except PyErr (List Flt) :=
  match g.ensureInit with
  | .error e => .error e
  | .ok g' =>
      match g'.tau with
      | some tau =>
          g'.finish (walk1 (maxDAmp * g.scaling) tau.length (g'.scaling * (rnd 0 * 2 - 1))
            (fun i => rnd (i + 1)))
      | none => .error .attributeError

/-- The loop of `PulseGenRndWalk2.gen_pulse` (pulsegen.py 596-600). -/
def walk2 (maxD2Amp : ℝ) : ℕ → ℝ → ℝ → (ℕ → ℝ) → List ℝ
  | 0, _, _, _ => []
  | n + 1, amp, grad, rnd =>
      let grad' := grad + (rnd 0 * 2 - 1) * maxD2Amp
      amp :: walk2 maxD2Amp n (amp + grad') grad' (fun i => rnd (i + 1))

/-- `PulseGenRndWalk2.gen_pulse` (pulsegen.py 576-602). -/
noncomputable def genRndWalk2 (g : Base) (maxD2Amp : ℝ) (rnd : ℕ → ℝ) : Except PyErr (List Flt) :=
  match g.ensureInit with
  | .error e => .error e
  | .ok g' =>
      match g'.tau with
      | some tau =>
          g'.finish (walk2 maxD2Amp tau.length (g'.scaling * (rnd 0 * 2 - 1)) 0
            (fun i => rnd (i + 1)))
      | none => .error .attributeError

/-! ### Waveforms -/

/-- The loop `pulse[k] = f(t); t = t + tau[k]` of the waveform generators (e.g.
pulsegen.py 768-772). -/
def sampleLoop {α : Type} (f : ℝ → α) : ℕ → ℝ → List ℝ → Except PyErr (List α)
  | 0, _, _ => .ok []
  | _ + 1, _, [] => .error .indexError
  | n + 1, t, d :: ds =>
      match sampleLoop f n (t + d) ds with
      | .error e => .error e
      | .ok r => .ok (f t :: r)

/-- `PulseGenLinear`: the base attributes and its own (pulsegen.py 624-633).  The gradient
is a numpy float once calculated. -/
structure Linear where
  base : Base
  gradient : Option Flt
  startVal : Option ℝ
  endVal : Option ℝ

/-- `PulseGenLinear.reset` (pulsegen.py 624-633). -/
def Linear.fresh (b : Base) : Linear :=
  { base := b, gradient := none, startVal := some (-1), endVal := some 1 }

/-- `PulseGenLinear.init_pulse` (pulsegen.py 635-648); the argument `gradient` is not
used by the code. -/
noncomputable def Linear.init (g : Linear) (_gradient startVal endVal : Option ℝ) :
    Except PyErr Linear :=
  match g.base.init with
  | .error e => .error e
  | .ok b =>
      let g1 : Linear :=
        match startVal, endVal with
        | some s, some e => { g with base := b, startVal := some s, endVal := some e }
        | _, _ => { g with base := b }
      match g1.startVal, g1.endVal with
      | some s, some e =>
          match (b.tau.getD []).getLast? with
          | none => .error .indexError
          | some last =>
              .ok { g1 with gradient := some ((Flt.fin (e - s)).div (.fin (b.pulseTime - last))) }
      | _, _ => .ok g1

/-- `PulseGenLinear.gen_pulse` (pulsegen.py 650-675). -/
noncomputable def Linear.gen (g : Linear) (gradient startVal endVal : Option ℝ) :
    Except PyErr (Linear × List Flt) :=
  match (if gradient.isSome || startVal.isSome || endVal.isSome then
          g.init gradient startVal endVal else .ok g) with
  | .error e => .error e
  | .ok g1 =>
      match (if g1.base.initialised then .ok g1 else g1.init none none none) with
      | .error e => .error e
      | .ok g2 =>
          match g2.gradient, g2.startVal, g2.base.tau with
          | some grad, some s, some tau =>
              match sampleLoop (fun t => (Flt.fin g2.base.scaling).mul
                  ((grad.mul (.fin t)).add (.fin s))) g2.base.numTslots 0 tau with
              | .error e => .error e
              | .ok pulse =>
                  match applyBounds g2.base.lbound g2.base.ubound g2.base.offset pulse with
                  | .error e => .error e
                  | .ok out => .ok (g2, out)
          | _, _, _ => .error .typeError

/-- `PulseGenPeriodic` (pulsegen.py 701-711). -/
structure Periodic where
  base : Base
  numWaves : Option ℝ
  freq : Option ℝ
  wavelen : Option ℝ
  startPhase : ℝ

/-- `PulseGenPeriodic.reset` (pulsegen.py 701-711). -/
def Periodic.fresh (b : Base) : Periodic :=
  { base := b, numWaves := none, freq := some 1, wavelen := none, startPhase := 0 }

open Classical in
/-- Division of Python floats: by zero raises ZeroDivisionError. -/
noncomputable def pyDiv (a b : ℝ) : Except PyErr ℝ :=
  if b = 0 then .error .zeroDivisionError else .ok (a / b)

/-- The calculation of frequency, wavelength and number of waves from each other
(pulsegen.py 732-741). -/
noncomputable def Periodic.derive (g : Periodic) : Except PyErr Periodic :=
  match g.numWaves, g.wavelen, g.freq with
  | some nw, _, _ =>
      match pyDiv nw g.base.pulseTime with
      | .error e => .error e
      | .ok f =>
          match pyDiv 1 f with
          | .error e => .error e
          | .ok w => .ok { g with freq := some f, wavelen := some w }
  | none, some w, _ =>
      match pyDiv 1 w with
      | .error e => .error e
      | .ok f => .ok { g with freq := some f, numWaves := some (w * g.base.pulseTime) }
  | none, none, some f =>
      match pyDiv 1 f with
      | .error e => .error e
      | .ok w => .ok { g with wavelen := some w, numWaves := some (w * g.base.pulseTime) }
  | none, none, none => .error .typeError

/-- `PulseGenPeriodic.init_pulse` (pulsegen.py 713-741). -/
noncomputable def Periodic.init (g : Periodic) (numWaves wavelen freq startPhase : Option ℝ) :
    Except PyErr Periodic :=
  match g.base.init with
  | .error e => .error e
  | .ok b =>
      let g1 : Periodic := { g with base := b, startPhase := startPhase.getD g.startPhase }
      let g2 : Periodic :=
        if numWaves.isSome || wavelen.isSome || freq.isSome then
          { g1 with numWaves := numWaves, wavelen := wavelen, freq := freq }
        else g1
      g2.derive

/-- The four periodic generators. -/
inductive Wave where
  | sine | square | saw | triangle

/-- The value of the wave at phase `2 pi freq t + start_phase` (Sine pulsegen.py 770-771,
Square 801-804, Saw 834-837, Triangle 867-870). -/
noncomputable def waveAt : Wave → ℝ → ℝ
  | .sine, phase => Real.sin phase
  | .square, phase =>
      let x := phase / (2 * Real.pi)
      4 * (⌊x⌋ : ℝ) - 2 * (⌊2 * x⌋ : ℝ) + 1
  | .saw, phase =>
      let x := phase / (2 * Real.pi)
      2 * (x - (⌊0.5 + x⌋ : ℝ))
  | .triangle, phase =>
      let x := (phase + Real.pi / 2) / (2 * Real.pi)
      2 * |2 * (x - (⌊0.5 + x⌋ : ℝ))| - 1

/-- `gen_pulse` of the four periodic generators (pulsegen.py 749-773, 781-806, 814-839,
847-873), which differ only in the wave shape. -/
noncomputable def Periodic.gen (w : Wave) (g : Periodic)
    (numWaves wavelen freq startPhase : Option ℝ) : Except PyErr (Periodic × List Flt) :=
  let g0 : Periodic := { g with startPhase := startPhase.getD g.startPhase }
  match (if numWaves.isSome || wavelen.isSome || freq.isSome then
          g0.init numWaves wavelen freq startPhase else .ok g0) with
  | .error e => .error e
  | .ok g1 =>
      match (if g1.base.initialised then .ok g1 else g1.init none none none none) with
      | .error e => .error e
      | .ok g2 =>
          match g2.freq, g2.base.tau with
          | some f, some tau =>
              match sampleLoop (fun t => g2.base.scaling *
                  waveAt w (2 * Real.pi * f * t + g2.startPhase)) g2.base.numTslots 0 tau with
              | .error e => .error e
              | .ok pulse =>
                  match g2.base.finish pulse with
                  | .error e => .error e
                  | .ok out => .ok (g2, out)
          | _, _ => .error .typeError

/-! ### Gaussians -/

open Classical in
/-- `if x: T = x else: T = attribute` (pulsegen.py 902-909): a zero argument counts as
missing. -/
noncomputable def truthyOr (arg : Option ℝ) (attr : ℝ) : ℝ :=
  match arg with
  | some x => if x = 0 then attr else x
  | none => attr

/-- `PulseGenGaussian.gen_pulse` (pulsegen.py 891-914); `t` is a numpy array, so a zero
variance gives infinite or nan exponents. -/
noncomputable def genGaussian (g : Base) (meanAttr varAttr : ℝ) (mean variance : Option ℝ) :
    Except PyErr (List Flt) :=
  match g.ensureInit with
  | .error e => .error e
  | .ok g' =>
      let Tm := truthyOr mean meanAttr
      let Tv := truthyOr variance varAttr
      match g'.time with
      | some t => applyBounds g'.lbound g'.ubound g'.offset (t.map fun x =>
          (Flt.fin g'.scaling).mul ((Flt.fin (-(x - Tm) ^ 2)).div (.fin (2 * Tv))).exp)
      | none => .error .typeError

/-- `PulseGenGaussianEdge.gen_pulse` (pulsegen.py 940-958). -/
noncomputable def genGaussianEdge (g : Base) (decayAttr : ℝ) (decay : Option ℝ) :
    Except PyErr (List Flt) :=
  match g.ensureInit with
  | .error e => .error e
  | .ok g' =>
      let Td := truthyOr decay decayAttr
      match g'.time with
      | some t => applyBounds g'.lbound g'.ubound g'.offset (t.map fun x =>
          ((((Flt.fin 1).sub ((Flt.fin (-x ^ 2)).div (.fin Td)).exp).sub
            ((Flt.fin (-(x - g'.pulseTime) ^ 2)).div (.fin Td)).exp).mul (.fin g'.scaling)))
      | none => .error .typeError

/-! ### All generators -/

/-- The generator classes with their own attributes (the CRAB generator is in
Model/Crab.lean). -/
inductive Kind where
  | zero
  | random
  | rndFourier (minWavelen : ℝ)
  | rndWaves (numCompWaves : ℕ) (minWavelen maxWavelen : ℝ)
  | rndWalk1 (maxDAmp : ℝ)
  | rndWalk2 (maxD2Amp : ℝ)
  | linear (gradient : Option Flt) (startVal endVal : Option ℝ)
  | periodic (w : Wave) (numWaves freq wavelen : Option ℝ) (startPhase : ℝ)
  | gaussian (mean variance : ℝ)
  | gaussianEdge (decayTime : ℝ)

/-- `pgen.gen_pulse()` without arguments, as called by `optimize_pulse`
(pulseoptim.py 476-480) and `create_pulse_optimizer` (pulseoptim.py 2080-2085). -/
noncomputable def generate (fuel : ℕ) (rnd : ℕ → ℝ) (b : Base) :
    Kind → Option (Except PyErr (List Flt))
  | .zero => some (genZero b)
  | .random => some (genRandom b rnd)
  | .rndFourier m => genRndFourier fuel b m rnd
  | .rndWaves n m M => some (genRndWaves b n m M rnd)
  | .rndWalk1 d => some (genRndWalk1 b d rnd)
  | .rndWalk2 d => some (genRndWalk2 b d rnd)
  | .linear g s e =>
      some ((Linear.gen ⟨b, g, s, e⟩ none none none).map Prod.snd)
  | .periodic w n f l p => some ((Periodic.gen w ⟨b, n, f, l, p⟩ none none none none).map Prod.snd)
  | .gaussian m v => some (genGaussian b m v none none)
  | .gaussianEdge d => some (genGaussianEdge b d none)

/-- What `create_pulse_gen` returns: one of the generators above, or the CRAB one. -/
inductive Created where
  | gen (k : Kind)
  | crabFourier

/-- `create_pulse_gen` (pulsegen.py 25-84): the class for a type name with the attribute
values its `reset` sets when no parameters are given. -/
noncomputable def createPulseGen (pulseType : String) (pulseTime : ℝ) : Except PyErr Created :=
  if pulseType = "RND" then .ok (.gen .random)
  else if pulseType = "RNDFOURIER" then .ok (.gen (.rndFourier (pulseTime / 10)))
  else if pulseType = "RNDWAVES" then
    .ok (.gen (.rndWaves 20 (pulseTime / 10) (2 * pulseTime)))
  else if pulseType = "RNDWALK1" then .ok (.gen (.rndWalk1 0.1))
  else if pulseType = "RNDWALK2" then .ok (.gen (.rndWalk2 0.01))
  else if pulseType = "LIN" then .ok (.gen (.linear none (some (-1)) (some 1)))
  else if pulseType = "ZERO" then .ok (.gen .zero)
  else if pulseType = "SINE" then .ok (.gen (.periodic .sine none (some 1) none 0))
  else if pulseType = "SQUARE" then .ok (.gen (.periodic .square none (some 1) none 0))
  else if pulseType = "SAW" then .ok (.gen (.periodic .saw none (some 1) none 0))
  else if pulseType = "TRIANGLE" then .ok (.gen (.periodic .triangle none (some 1) none 0))
  else if pulseType = "GAUSSIAN" then .ok (.gen (.gaussian (0.5 * pulseTime) (0.5 * pulseTime)))
  else if pulseType = "CRAB_FOURIER" then .ok .crabFourier
  else if pulseType = "GAUSSIAN_EDGE" then .ok (.gen (.gaussianEdge (pulseTime / 10)))
  else .error .valueError

end QTrl.Pulse
