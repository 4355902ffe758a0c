import Verif.Proofs.ViewLists

/-
C62: the public lists of operators, for states as for gates, whatever was read before.
-/

namespace QTrl.ViewList

variable {V : Type}

/-- **C62**, the part that holds.  After any history, once an evolution was computed, and
whatever was read since: the lists of generators, propagators and forward evolutions show what
was computed, for gates and states and both data types; the onto list too if the data type is
`Qobj` or the initial operator is square, its last entry being (for arrays) the inverse target
that can be read; the onward list for arrays and initial operators of the shape of the
generators.  Missing: see the `violated` theorems below and `C21_violated`. -/
theorem C62_views_partial (c : Cfg V) (i t : Arr V) (pre post : List (Op V)) (x : Computed V)
    (hx : Fits c x) (hpost : ∀ o ∈ post, o.looks = true) :
    let s0 := run c (start i t) pre
    let s := run c (step c s0 (.compute x)) post
    s0.ops.isSome = true →
      (readDynGen c s).2 = .ok (some (x.dynGen.map some)) ∧
      (readProp c s).2 = .ok (some (x.prop.map some)) ∧
      (readFwd c s).2 = .ok (some (some i :: x.fwd.map some)) ∧
      (c.usesOnto = true → c.isQobj = true → ∀ o, s0.ops = some o →
        (readOnto c s).2 = .ok (some (x.onto.map some ++ o.onto.drop c.n))) ∧
      (c.usesOnto = true → c.isQobj = false → c.sysShape.1 = c.sysShape.2 →
        ∃ g, (readOntoTarget c s).2 = .ok g ∧
          (readOnto c s).2 = .ok (some (x.onto.map some ++ [some g]))) ∧
      (c.usesOnwd = true → c.isQobj = false → c.sysShape = c.dynShape →
        (readOnwd c s).2 = .ok (some (x.onwd.map some))) := by
  intro s0 s hi
  have hr : Ready i s0 := ready_run pre (ready_start i t)
  obtain ⟨o, ho⟩ := Option.isSome_iff_exists.1 hi
  have h := since_run hx post hpost (since_compute (c := c) hr ho x)
  refine ⟨?_, ?_, ?_, fun hu hq o' ho' => ?_, fun hu hq hs => ?_, fun hu hq hs => ?_⟩
  · obtain ⟨v, -, e⟩ := readDynGen_since hx h
    rw [e]
  · obtain ⟨v, -, e⟩ := readProp_since hx h
    rw [e]
  · obtain ⟨v, -, e⟩ := readFwd_since hx h
    rw [e]
  · rw [ho] at ho'
    cases ho'
    exact (readOnto_since hx h (.inr hq)).2.1 hu hq
  · exact (readOnto_since hx h (.inl (Prod.ext hs hs.symm))).2.2 hu hq
  · obtain ⟨v, -, -, e⟩ := readOnwd_since hx h hq hs
    exact e hu

/-- **C62 violated** for state transfer with arrays: the operators of the onto evolution are
bras and get the dimensions of the ket.  The first reading raises `ValueError`, every later one
shows an empty list. -/
theorem C62_onto_states_violated (c : Cfg V) (i t : Arr V) (pre : List (Op V)) (x : Computed V)
    (hx : Fits c x) (hn : 0 < c.n) (hu : c.usesOnto = true) (hq : c.isQobj = false)
    (hs : c.sysShape.1 ≠ c.sysShape.2) :
    let s0 := run c (start i t) pre
    let s := step c s0 (.compute x)
    s0.ops.isSome = true →
      (readOnto c s).2 = .error .valueError ∧
      (readOnto c (readOnto c s).1).2 = .ok (some []) ∧
      (readOnto c (readOnto c (readOnto c s).1).1).2 = .ok (some []) := by
  intro s0 s hi
  have hr : Ready i s0 := ready_run pre (ready_start i t)
  obtain ⟨o, ho⟩ := Option.isSome_iff_exists.1 hi
  have hne : x.onto ≠ [] := by
    intro h
    have := hx.nOnto
    rw [h] at this
    simp at this
    omega
  have hbad : ∀ a ∈ x.onto, a.shape ≠ c.sysShape := by
    intro a ha e
    have := hx.onto a ha
    rw [e] at this
    exact hs (congrArg Prod.fst this)
  have e : readOnto c s = ({ s with ontoQ := .list [] }, .error .valueError) := by
    simp only [s, step, recompute, ho, readOnto, if_pos hu, hq]
    rw [List.take_left' (by simp [hx.nOnto]), appendLoop_bad hne hbad]
    rfl
  have e2 : readOnto c { s with ontoQ := .list [] } =
      ({ s with ontoQ := .list [] }, .ok (some [])) := by
    simp only [s, step, recompute, ho, readOnto, if_pos hu]
    rfl
  rw [e]
  dsimp only
  rw [e2]
  exact ⟨rfl, rfl, by rw [e2]⟩

/-- **C62 violated** for state transfer with arrays: the onward operators get the dimensions of
the ket, and reading them raises `ValueError` every time. -/
theorem C62_onwd_states_violated (c : Cfg V) (i t : Arr V) (pre : List (Op V)) (x : Computed V)
    (hx : Fits c x) (hne : x.onwd ≠ []) (hu : c.usesOnwd = true) (hq : c.isQobj = false)
    (hs : c.sysShape ≠ c.dynShape) :
    let s0 := run c (start i t) pre
    let s := step c s0 (.compute x)
    s0.ops.isSome = true → readOnwd c s = (s, .error .valueError) := by
  intro s0 s hi
  obtain ⟨o, ho⟩ := Option.isSome_iff_exists.1 hi
  simp only [s, step, recompute, ho, readOnwd, if_pos hu, hq]
  rw [comprehension_bad hne fun a ha => by rw [hx.onwd a ha]; exact hs.symm]
  rfl

/-- **C62 violated.** Read between initialisation and computation, the forward list of arrays
raises `TypeError` once, and then is shown with the initial operator as its only entry. -/
theorem C62_early_violated (c : Cfg V) (i t : Arr V) (hn : 0 < c.n) (hq : c.isQobj = false) :
    let s := run c (start i t) [.init]
    (readFwd c s).2 = .error .typeError ∧
    (readFwd c (readFwd c s).1).2 = .ok (some [some i]) := by
  obtain ⟨n, hn⟩ : ∃ n, c.n = n + 1 := ⟨c.n - 1, by omega⟩
  intro s
  have e : readFwd c s = ({ s with fwdQ := .list [some i] }, .error .typeError) := by
    simp only [s, run, List.foldl, step, initEvo, start, readFwd, hq, hn, List.replicate_succ]
    rfl
  rw [e]
  refine ⟨rfl, ?_⟩
  simp only [s, run, List.foldl, step, initEvo, start, readFwd]
  rfl

/-! ### The inverse target -/

/-- **C62.** As long as the target is not assigned again, the inverse target read at any time
after an initialisation is the inverse (adjoint) of the target, and it is the last operator of
the internal onto evolution.  Missing: changed targets, see `C62_target_violated`. -/
theorem C62_target_partial (c : Cfg V) (i t : Arr V) (ops : List (Op V))
    (hk : ∀ o ∈ ops, o.keepsTarget = true ∧ o.Fills c) :
    let s := run c (start i t) ops
    s.ops.isSome = true → (readOntoTarget c s).2 = .ok (c.inv t) ∧
      ∀ o, s.ops = some o → c.usesOnto = true → o.onto.drop c.n = [some (c.inv t)] := by
  intro s hs
  have h : OneTarget c t s := one_run ops (s := start i t)
    ⟨rfl, fun p e => (by simp [start] at e), fun p e => (by simp [start] at e),
      fun p e => (by simp [start] at e), fun o e => (by simp [start] at e)⟩ hk
  have hr : Ready i s := ready_run ops (ready_start i t)
  obtain ⟨a, g, e, -⟩ := readOntoTarget_ready c s (hr.priv hs)
  refine ⟨?_, h.last⟩
  have := (readOntoTarget_one h).2 g (by rw [e])
  rw [e, this]

/-- **C62 violated.** Once read, the inverse target stays what it was when the target changes
and the evolution is initialised again, while the onto evolution is computed with the new one;
for arrays the last entry of the public onto list is the old one too. -/
theorem C62_target_violated (c : Cfg V) (i t t' : Arr V) (x : Computed V) (hx : Fits c x)
    (hu : c.usesOnto = true) (hs : c.sysShape.1 = c.sysShape.2) :
    let s := run c (start i t) [.init, .readOntoTarget, .setTarget t', .init, .compute x]
    (readOntoTarget c s).2 = .ok (c.inv t) ∧
    (∀ o, s.ops = some o → o.onto = x.onto.map some ++ [some (c.inv t')]) ∧
    (c.isQobj = false → (readOnto c s).2 = .ok (some (x.onto.map some ++ [some (c.inv t)]))) := by
  have e1 : (readOntoTarget c (run c (start i t)
      [.init, .readOntoTarget, .setTarget t', .init, .compute x])).2 = .ok (c.inv t) := by
    simp only [run, List.foldl, step, initEvo, start, recompute, readOntoTarget, getOntoTarget, hu]
    cases c.unitary <;> cases c.isQobj <;> rfl
  refine ⟨e1, ?_, fun hq => ?_⟩
  · intro o ho
    simp only [run, List.foldl, step, initEvo, start, recompute, readOntoTarget, getOntoTarget,
      hu] at ho
    have hl : ∀ u : Option (Arr V),
        (List.replicate c.n (none : Option (Arr V)) ++ [u]).drop c.n = [u] :=
      fun u => by rw [List.drop_left' (by simp)]
    cases hc : c.unitary <;> cases hq : c.isQobj <;> simp [hc, hq] at ho <;>
      (subst ho; simp)
  · have h := C62_views_partial c i t [.init, .readOntoTarget, .setTarget t', .init] [] x hx
      (by simp) (by
        simp only [run, List.foldl, step, initEvo, start, readOntoTarget, getOntoTarget, hu]
        cases c.unitary <;> cases c.isQobj <;> rfl)
    obtain ⟨g, eg, er⟩ := h.2.2.2.2.1 hu hq hs
    have : g = c.inv t := by
      have e1' : (readOntoTarget c (run c (step c (run c (start i t)
        [.init, .readOntoTarget, .setTarget t', .init]) (.compute x)) [])).2 = .ok (c.inv t) := e1
      rw [eg] at e1'
      cases e1'
      rfl
    rw [this] at er
    exact er

/-! ### Non-vacuity -/

/-- A qubit gate and a state transfer, one slot. -/
def gateCfg : Cfg Nat := ⟨1, (2, 2), (2, 2), false, true, true, true, fun a => ⟨a.cols, a.rows, a.val + 100⟩⟩
def ketCfg : Cfg Nat := { gateCfg with sysShape := (2, 1) }
def gateOps : Computed Nat := ⟨[⟨2, 2, 1⟩], [⟨2, 2, 2⟩], [⟨2, 2, 3⟩], [⟨2, 2, 4⟩], [⟨2, 2, 5⟩]⟩
def ketOps : Computed Nat := { gateOps with fwd := [⟨2, 1, 3⟩], onto := [⟨1, 2, 5⟩] }

example : Fits gateCfg gateOps ∧ Fits ketCfg ketOps := by
  constructor <;> constructor <;> simp [gateCfg, ketCfg, gateOps, ketOps, Arr.shape]

example : ketCfg.sysShape.1 ≠ ketCfg.sysShape.2 ∧ ketCfg.sysShape ≠ ketCfg.dynShape ∧
    gateCfg.sysShape = gateCfg.dynShape ∧
    (run ketCfg (start ⟨2, 1, 0⟩ ⟨2, 1, 9⟩) [.readFwd, .init, .readOnto]).ops.isSome = true := by
  decide

end QTrl.ViewList
