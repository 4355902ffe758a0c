import Verif.Spec.Reuse

/-
What an object keeps when it is used for systems of one kind.
-/

namespace QTrl.Reuse

open QTrl.Mem (MemOpts Dtype setMemory chooseOperDtype)

variable {K V : Type} [Field K] [AddCommGroup V] [Module K V]

/-- The options are those of the user or the ones worked out. -/
structure MemInv (m : MemOpts) (phase : Bool) (dt : Dtype) (o : MemOpts) : Prop where
  level : o.level = m.level
  dtype : o.operDtype = m.operDtype ∨ o.operDtype = (resolved m phase dt).operDtype
  phased : o.cachePhased = m.cachePhased ∨ o.cachePhased = (resolved m phase dt).cachePhased
  grad : o.cachePropGrad = m.cachePropGrad ∨ o.cachePropGrad = (resolved m phase dt).cachePropGrad
  adj : o.cacheAdj = m.cacheAdj ∨ o.cacheAdj = (resolved m phase dt).cacheAdj
  sparse : o.sparse = m.sparse ∨ o.sparse = (resolved m phase dt).sparse

/-- What holds throughout. -/
structure Inv (W : World V) (m : MemOpts) (nTs : Nat) (sympl hasPhase : Bool) (scale : Option K)
    (s : Sig) (o : Obj K V) : Prop where
  sys : Fits W m s o.sys
  mem : MemInv m (sympl || hasPhase) s.dtype o.mem
  nTs : o.nTs = nTs
  sympl : o.sympl = sympl
  hasPhase : o.hasPhase = hasPhase
  num : o.num = none ∨ (o.num = some s.n ∧ o.tdCtrl = s.timeDep ∧ o.checked = true)
  td : o.tdCtrl = true → s.timeDep = true
  dim : o.dim = none ∨ o.dim = some s.dim
  omega : o.omega = none ∨ (o.sympl = true ∧ o.omega = some (s.dim / 2))
  phase : o.phase = none ∨ (o.phase = some (s.dim / 2) ∧ o.omega = some (s.dim / 2))
  scale : o.scale = scale ∨ o.scale = some (scale.getD (1 / (2 * (s.dim : K))))

/-- `setMemory` in one expression. -/
theorem setMemory_eq (o : MemOpts) (N nnz : Nat) :
    setMemory o N nnz =
      { level := o.level
        operDtype := some (o.operDtype.getD (chooseOperDtype o.level N nnz))
        cachePhased := some (o.cachePhased.getD (decide (o.level ≤ 0)))
        cachePropGrad := some (o.cachePropGrad.getD (decide (o.level ≤ 0)))
        cacheAdj := some (o.cacheAdj.getD (decide (o.level ≤ 0)))
        sparse := some (o.sparse.getD (decide (1 < o.level))) } := by
  obtain ⟨lv, o1, o2, o3, o4, o5⟩ := o
  have d0 : decide (lv ≤ 0) = !decide (0 < lv) := by
    rw [← decide_not]; exact decide_eq_decide.2 not_lt.symm
  simp only [setMemory, d0]
  by_cases l0 : 0 < lv <;> by_cases l1 : 1 < lv <;>
    cases o1 <;> cases o2 <;> cases o3 <;> cases o4 <;> cases o5 <;> simp [l0, l1]

theorem getD_inv {α : Type} {x m : Option α} {a : α} (h : x = m ∨ x = some (m.getD a)) :
    x.getD a = m.getD a := by
  rcases h with h | h <;> rw [h]; rfl

/-- `setMemory` from such options. -/
theorem setMemory_resolved {m o : MemOpts} {phase : Bool} {dt : Dtype} (h : MemInv m phase dt o)
    (hp : phase = false → o.cachePhased = some false) {N nnz : Nat}
    (hd : m.operDtype = none → o.operDtype = none → chooseOperDtype m.level N nnz = dt) :
    setMemory o N nnz = resolved m phase dt := by
  obtain ⟨h1, h2, h3, h4, h5, h6⟩ := h
  rw [setMemory_eq]
  simp only [resolved] at *
  rw [h1]
  have e1 : o.operDtype.getD (chooseOperDtype m.level N nnz) = m.operDtype.getD dt := by
    rcases h2 with h2 | h2
    · rw [h2]
      cases hm : m.operDtype with
      | none => simp only [Option.getD_none]; exact hd hm (h2.trans hm)
      | some x => rfl
    · rw [h2]; rfl
  have e2 : o.cachePhased.getD (decide (m.level ≤ 0)) =
      if phase then m.cachePhased.getD (decide (m.level ≤ 0)) else false := by
    cases phase with
    | false => rw [hp rfl]; rfl
    | true => exact getD_inv h3
  rw [e1, e2, getD_inv h4, getD_inv h5, getD_inv h6]

omit [Field K] [Module K V] in
/-- Nothing is converted. -/
theorem check_fit {W : World V} {m : MemOpts} {s : Sig} {o : Obj K V} (h : Fits W m s o.sys) :
    o.check = o := by
  have hc := h.ctrls
  have : convert o.sys.ctrls = o.sys.ctrls := by
    cases hx : o.sys.ctrls with
    | nested r => rw [hx] at hc; exact hc.elim
    | _ => rfl
  unfold Obj.check
  rw [this]

omit [Field K] [Module K V] in
/-- What the parts do to the object. -/
theorem refresh_fit {W : World V} {m : MemOpts} {s : Sig} {o : Obj K V} (h : Fits W m s o.sys) :
    refreshDrift W o = ({ o with tdDrift := o.sys.drift.perSlot?, dim := some s.dim }, .ok ()) := by
  have hd := h.drift
  unfold refreshDrift
  cases hx : o.sys.drift with
  | single A =>
    rw [hx] at hd
    simp only [DriftFit] at hd
    simp only [hd, Drift.perSlot?]
  | perSlot l =>
    rw [hx] at hd
    obtain ⟨A, r, rfl, e⟩ := hd
    simp only [e, Drift.perSlot?]

theorem driftDim_fit {W : World V} {m : MemOpts} {s : Sig} {o : Obj K V} (h : Fits W m s o.sys)
    (hd : o.dim = none ∨ o.dim = some s.dim) :
    (driftDim W o).2 = .ok s.dim ∧ ∃ b, (driftDim W o).1 = { o with tdDrift := b, dim := some s.dim } := by
  unfold driftDim
  rcases hd with hd | hd
  · rw [hd]
    simp only [refresh_fit h]
    exact ⟨rfl, _, rfl⟩
  · rw [hd]
    refine ⟨rfl, o.tdDrift, ?_⟩
    simp only
    rw [← hd]

theorem omega_fit {W : World V} {m : MemOpts} {s : Sig} {o : Obj K V} (h : Fits W m s o.sys)
    (hd : o.dim = none ∨ o.dim = some s.dim) (ho : o.omega = none ∨ o.omega = some (s.dim / 2)) :
    (getOmega W o).2 = .ok (s.dim / 2) ∧ ((getOmega W o).1 = o ∨
      ∃ b, (getOmega W o).1 = { o with tdDrift := b, dim := some s.dim, omega := some (s.dim / 2) }) ∧
      (getOmega W o).1.omega = some (s.dim / 2) := by
  unfold getOmega
  rcases ho with ho | ho
  · rw [ho]
    obtain ⟨h1, b, h2⟩ := driftDim_fit h hd
    rcases hx : driftDim W o with ⟨o1, r⟩
    rw [hx] at h1 h2
    simp only at h1 h2
    subst h1
    simp only
    exact ⟨trivial, .inr ⟨b, by rw [h2]⟩, trivial⟩
  · rw [ho]
    exact ⟨rfl, .inl rfl, ho⟩

section
variable {W : World V} {m : MemOpts} {nTs : Nat} {sympl hasPhase : Bool} {scale : Option K}
  {s : Sig} {o : Obj K V}

theorem inv_readNum (h : Inv W m nTs sympl hasPhase scale s o) :
    Inv W m nTs sympl hasPhase scale s (readNum o).1 ∧ (readNum o).2 = s.n ∧
      (readNum o).1 = { o with checked := (readNum o).1.checked, num := some s.n,
                               tdCtrl := s.timeDep } ∧ (readNum o).1.checked = true := by
  have hc := h.sys.ctrls
  rcases h.num with hn | ⟨hn, ht, hk⟩
  · have hck : o.check = o := check_fit h.sys
    have cnt : ∀ o' : Obj K V, o'.sys = o.sys → o'.tdCtrl = o.tdCtrl →
        o'.count = ({ o' with num := some s.n, tdCtrl := s.timeDep }, s.n) := by
      intro o' e1 e2
      unfold Obj.count
      rw [e1]
      cases hx : o.sys.ctrls with
      | nested r => rw [hx] at hc; exact hc.elim
      | list l =>
        rw [hx] at hc
        simp only [CtrlsFit] at hc
        have : o'.tdCtrl = s.timeDep := by
          rw [hc.1, e2]
          cases ht : o.tdCtrl with
          | false => rfl
          | true => exact absurd (h.td ht) (by rw [hc.1]; decide)
        simp only [hc.2, ← this]
      | array rows =>
        rw [hx] at hc
        obtain ⟨h1, h2, h3⟩ := hc
        cases rows with
        | nil => exact (h2 rfl).elim
        | cons r rs =>
          have := h3 r (List.mem_cons_self ..)
          simp only [List.head?_cons, Option.map_some, Option.getD_some, this, h1]
    have key : readNum o =
        ({ o with checked := true, num := some s.n, tdCtrl := s.timeDep }, s.n) := by
      unfold readNum
      rw [hn, hck]
      simp only
      split
      · rename_i hk
        rw [cnt o rfl rfl, ← hk]
      · exact cnt _ rfl rfl
    rw [key]
    refine ⟨?_, rfl, rfl, rfl⟩
    exact { h with num := .inr ⟨rfl, rfl, rfl⟩, td := id }
  · have key : readNum o = (o, s.n) := by unfold readNum; rw [hn]
    rw [key]
    refine ⟨h, rfl, ?_, hk⟩
    simp only [← hn, ← ht]

theorem inv_phase (h : Inv W m nTs sympl hasPhase scale s o) (hd : o.dim = some s.dim) :
    ∃ c, initPhase W o =
        ({ o with mem := { o.mem with cachePhased := c }
                  omega := if sympl then some (s.dim / 2) else none
                  phase := if sympl then some (s.dim / 2) else none }, .ok ()) ∧
        (c = o.mem.cachePhased ∨ c = (resolved m (sympl || hasPhase) s.dtype).cachePhased) ∧
        ((sympl || hasPhase) = false → c = some false) := by
  unfold initPhase
  rw [h.sympl, h.hasPhase]
  cases hs : sympl with
  | true =>
    simp only [if_true, Bool.true_or, Bool.true_eq_false, false_imp_iff, and_true]
    refine ⟨o.mem.cachePhased, ?_, .inl rfl⟩
    have h1 := h.phase
    have h2 := h.omega
    have h3 := h.sympl
    have h4 := h.hasPhase
    cases o
    simp only at hd h1 h2 h3 h4
    subst hd h3 h4
    rcases h1 with rfl | ⟨rfl, rfl⟩
    · rcases h2 with rfl | ⟨_, rfl⟩
      · simp [getPhase, getOmega, driftDim, hs]
      · simp [getPhase, getOmega, hs]
    · simp [getPhase, hs]
  | false =>
    have hos : o.sympl = false := by rw [h.sympl, hs]
    have ho : o.omega = none := by
      rcases h.omega with ho | ⟨h1, _⟩
      · exact ho
      · rw [hos] at h1; cases h1
    have hp : o.phase = none := by
      rcases h.phase with hp | ⟨_, h2⟩
      · exact hp
      · rw [ho] at h2; cases h2
    simp only [Bool.false_eq_true, if_false, Bool.false_or]
    cases hasPhase with
    | true =>
      refine ⟨o.mem.cachePhased, ?_, .inl rfl, fun hx => by cases hx⟩
      have h4 := h.hasPhase
      cases o
      simp_all
    | false =>
      refine ⟨some false, ?_, .inr rfl, fun _ => rfl⟩
      have h4 := h.hasPhase
      cases o
      simp_all

omit [Field K] [Module K V] in
/-- The sum exists once the number of controls was read. -/
theorem sum_fit {S : System V} (h : Fits W m s S) : ∃ v, sumAll W S.drift.perSlot? s.timeDep S = .ok v := by
  have hd := h.drift
  have hc := h.ctrls
  obtain ⟨dr, c, i, t⟩ := S
  simp only at hd hc
  cases c with
  | nested r => exact hc.elim
  | list l =>
    obtain ⟨h1, _⟩ := hc
    cases dr with
    | single A => exact ⟨_, by simp [sumAll, h1, Drift.perSlot?]; rfl⟩
    | perSlot l =>
      obtain ⟨A, r, rfl, _⟩ := hd
      exact ⟨_, by simp [sumAll, h1, Drift.perSlot?]; rfl⟩
  | array rows =>
    obtain ⟨h1, h2, _⟩ := hc
    cases rows with
    | nil => exact (h2 rfl).elim
    | cons r rs =>
      cases dr with
      | single A => exact ⟨_, by simp [sumAll, h1, Drift.perSlot?]; rfl⟩
      | perSlot l =>
        obtain ⟨A, r, rfl, _⟩ := hd
        exact ⟨_, by simp [sumAll, h1, Drift.perSlot?]; rfl⟩

/-- `setMem` when it returns. -/
theorem inv_mem (h : MemInv m (sympl || hasPhase) s.dtype o.mem) (hf : Fits W m s o.sys)
    (hp : (sympl || hasPhase) = false → o.mem.cachePhased = some false) :
    ((setMem W o).2 = .ok () ∧
      (setMem W o).1 = { o with mem := resolved m (sympl || hasPhase) s.dtype }) ∨
    (∃ e, setMem W o = (o, .error e) ∧ sumAll W o.tdDrift o.tdCtrl o.sys = .error e) := by
  unfold setMem
  split
  · rename_i hc
    cases hx : sumAll W o.tdDrift o.tdCtrl o.sys with
    | error e => exact .inr ⟨e, rfl, rfl⟩
    | ok v =>
      refine .inl ⟨rfl, ?_⟩
      simp only
      rw [setMemory_resolved h hp fun hm _ => hf.dtype hm _ _ _ hx]
  · rename_i hc
    refine .inl ⟨rfl, ?_⟩
    simp only
    by_cases hl : 0 < o.mem.level
    · obtain ⟨v, hv⟩ := sum_fit hf
      rw [setMemory_resolved h hp fun hm _ => ?_]
      have := hf.dtype hm _ _ _ hv
      rw [h.level] at hl
      rw [← this]
      simp only [chooseOperDtype, if_pos hl]
    · rw [setMemory_resolved h hp fun hm hn => absurd ⟨hn, hl⟩ hc]

/-- The object just before the containers are made. -/
def before (m : MemOpts) (nTs : Nat) (sympl hasPhase : Bool) (s : Sig) (o : Obj K V) : Obj K V :=
  { ready m nTs sympl hasPhase o.scale s o.sys with scale := o.scale, used := o.used }

/-- The object after the phase was initialised. -/
def mid (s : Sig) (sympl : Bool) (o : Obj K V) (c : Option Bool) : Obj K V :=
  { o with tdDrift := o.sys.drift.perSlot?, dim := some s.dim,
           mem := { o.mem with cachePhased := c },
           omega := if sympl then some (s.dim / 2) else none,
           phase := if sympl then some (s.dim / 2) else none }

/-- What an initialisation amounts to, once the number of controls was read. -/
def outcome (W : World V) (b : Obj K V) : Obj K V × Except PyErr Unit :=
  if b.mem.sparse = some true ∧ W.rows b.sys.initial ≤ 2 then (b, .error .valueError)
  else match containers W b (b.num.getD 0) with
    | .error e => (b, .error e)
    | .ok () => (initScale { b with used := some b.sys }, .ok ())

theorem memInv_phased {c : Option Bool} (h : MemInv m (sympl || hasPhase) s.dtype o.mem)
    (hc : c = o.mem.cachePhased ∨ c = (resolved m (sympl || hasPhase) s.dtype).cachePhased) :
    MemInv m (sympl || hasPhase) s.dtype { o.mem with cachePhased := c } := by
  refine { h with phased := ?_ }
  rcases hc with rfl | rfl
  · exact h.phased
  · exact .inr rfl

/-- The first half of `init`. -/
theorem init_stage (h : Inv W m nTs sympl hasPhase scale s o) :
    ∃ p : Obj K V, Inv W m nTs sympl hasPhase scale s p ∧ p.sys = o.sys ∧ p.num = o.num ∧
      p.tdCtrl = o.tdCtrl ∧ p.checked = o.checked ∧ p.scale = o.scale ∧ p.used = o.used ∧
      ((∃ e, init W o = (p, .error e) ∧ sumAll W o.sys.drift.perSlot? o.tdCtrl o.sys = .error e) ∨
       (p = { before m nTs sympl hasPhase s o with
                checked := o.checked, num := o.num, tdCtrl := o.tdCtrl } ∧
        init W o = if p.mem.sparse = some true ∧ W.rows p.sys.initial ≤ 2 then
            (p, .error .valueError)
          else match containers W (readNum p).1 (readNum p).2 with
            | .error e => ((readNum p).1, .error e)
            | .ok () => (initScale { (readNum p).1 with used := some (readNum p).1.sys }, .ok ()))) := by
  have hck : (if o.checked = true then o else o.check) = o := by
    rw [check_fit h.sys]; split <;> rfl
  have h1 : Inv W m nTs sympl hasPhase scale s
      { o with tdDrift := o.sys.drift.perSlot?, dim := some s.dim } :=
    { h with dim := .inr rfl }
  obtain ⟨c, e2, c1, c2⟩ := inv_phase h1 rfl
  simp only at e2 c1
  have hm := memInv_phased (o := o) h.mem c1
  change initPhase W _ = (mid s sympl o c, _) at e2
  have h2 : Inv W m nTs sympl hasPhase scale s (mid s sympl o c) := by
    refine { h1 with mem := hm, omega := ?_, phase := ?_ }
    · cases hs : sympl with
      | true => exact .inr ⟨h.sympl.trans hs, rfl⟩
      | false => exact .inl rfl
    · cases sympl with
      | true => exact .inr ⟨rfl, rfl⟩
      | false => exact .inl rfl
  have h3 := inv_mem (W := W) (o := mid s sympl o c) hm h.sys c2
  rcases h3 with ⟨r1, r2⟩ | ⟨e, r1, r2⟩
  · have hp : ({ mid s sympl o c with mem := resolved m (sympl || hasPhase) s.dtype } : Obj K V) =
        { before m nTs sympl hasPhase s o with
                checked := o.checked, num := o.num, tdCtrl := o.tdCtrl } := by
      simp only [mid, before, ready, h.nTs, h.sympl, h.hasPhase]
    refine ⟨{ mid s sympl o c with mem := resolved m (sympl || hasPhase) s.dtype }, ?_, rfl, rfl,
      rfl, rfl, rfl, rfl, .inr ⟨hp, ?_⟩⟩
    · exact { h2 with mem := ⟨rfl, .inr rfl, .inr rfl, .inr rfl, .inr rfl, .inr rfl⟩ }
    · have r3 : setMem W (mid s sympl o c) =
          ({ mid s sympl o c with mem := resolved m (sympl || hasPhase) s.dtype }, .ok ()) :=
        Prod.ext r2 r1
      unfold init
      simp only [hck, refresh_fit h.sys, e2, r3]
      rfl
  · refine ⟨mid s sympl o c, h2, rfl, rfl, rfl, rfl, rfl, rfl, .inl ⟨e, ?_, r2⟩⟩
    unfold init
    simp only [hck, refresh_fit h.sys, e2, r1]

theorem inv_scale (h : Inv W m nTs sympl hasPhase scale s o) (hd : o.dim = some s.dim) :
    Inv W m nTs sympl hasPhase scale s (initScale o) ∧
      initScale o = { o with scale := some (scale.getD (1 / (2 * (s.dim : K)))) } := by
  have key : initScale o = { o with scale := some (scale.getD (1 / (2 * (s.dim : K)))) } := by
    unfold initScale
    rcases h.scale with hs | hs
    · cases hx : scale with
      | none =>
        rw [hx] at hs
        simp only [hs, hd, Option.getD_some, Option.getD_none]
      | some x =>
        rw [hx] at hs
        simp only [hs, Option.getD_some]
        rw [← hs]
    · simp only [hs]
      rw [← hs]
  rw [key]
  exact ⟨{ h with scale := .inr rfl }, rfl⟩

/-- Initialisation keeps what holds throughout. -/
theorem inv_init (h : Inv W m nTs sympl hasPhase scale s o) :
    Inv W m nTs sympl hasPhase scale s (init W o).1 := by
  obtain ⟨p, hp, -, -, -, -, -, -, ⟨e, he, -⟩ | ⟨h1, h2⟩⟩ := init_stage h
  · rw [he]; exact hp
  · rw [h2]
    split
    · exact hp
    · obtain ⟨i1, i2, i3, i4⟩ := inv_readNum hp
      split
      · exact i1
      · have : Inv W m nTs sympl hasPhase scale s
            { (readNum p).1 with used := some (readNum p).1.sys } := { i1 with }
        refine (inv_scale this ?_).1
        show (readNum p).1.dim = _
        rw [i3, h1]
        rfl

/-- Once the number of controls was read, an initialisation does the same for every object. -/
theorem init_known (h : Inv W m nTs sympl hasPhase scale s o) (hn : o.num = some s.n) :
    (init W o).2 = (outcome W (before m nTs sympl hasPhase s o)).2 ∧
      ((init W o).2 = .ok () → (init W o).1 = ready m nTs sympl hasPhase scale s o.sys) := by
  have hk : o.tdCtrl = s.timeDep ∧ o.checked = true := by
    rcases h.num with h0 | ⟨_, h1, h2⟩
    · rw [hn] at h0; cases h0
    · exact ⟨h1, h2⟩
  obtain ⟨p, hp, -, pn, -, -, ps, -, ⟨e, he, hs⟩ | ⟨h1, h2⟩⟩ := init_stage h
  · obtain ⟨v, hv⟩ := sum_fit h.sys
    rw [hk.1, hv] at hs
    cases hs
  · have hb : p = before m nTs sympl hasPhase s o := by
      rw [h1, hk.1, hk.2, hn]
      rfl
    have hr : readNum p = (p, s.n) := by
      have : p.num = some s.n := pn.trans hn
      unfold readNum
      rw [this]
    rw [hr] at h2
    simp only at h2
    have hnum : (before m nTs sympl hasPhase s o).num.getD 0 = s.n := rfl
    rw [h2, outcome, hnum, ← hb]
    split
    · exact ⟨rfl, fun hx => by cases hx⟩
    · split
      · exact ⟨rfl, fun hx => by cases hx⟩
      · refine ⟨rfl, fun _ => ?_⟩
        have hu : Inv W m nTs sympl hasPhase scale s { p with used := some p.sys } := { hp with }
        simp only
        rw [(inv_scale hu (by rw [hb]; rfl)).2, hb]
        rfl

/-- The outcome does not depend on what is kept. -/
theorem outcome_congr (o' : Obj K V) (hs : o.sys = o'.sys) :
    (outcome W (before m nTs sympl hasPhase s o)).2 =
      (outcome W (before m nTs sympl hasPhase s o')).2 := by
  have e1 : (before m nTs sympl hasPhase s o).mem = (before m nTs sympl hasPhase s o').mem := rfl
  have e2 : (before m nTs sympl hasPhase s o).sys = (before m nTs sympl hasPhase s o').sys := hs
  have e3 : containers W (before m nTs sympl hasPhase s o)
      ((before m nTs sympl hasPhase s o).num.getD 0) =
    containers W (before m nTs sympl hasPhase s o')
      ((before m nTs sympl hasPhase s o').num.getD 0) := by
    unfold containers
    rw [e1, e2]
    rfl
  unfold outcome
  rw [e1, e2, e3]
  split
  · rfl
  · split <;> rfl

/-- Every step keeps what holds throughout. -/
theorem inv_step (h : Inv W m nTs sympl hasPhase scale s o) (op : Op V) (ho : OpFits W m s op) :
    Inv W m nTs sympl hasPhase scale s (step W o op) := by
  cases op with
  | assign S => exact { h with sys := ho }
  | readNum => exact (inv_readNum h).1
  | readDim =>
    obtain ⟨_, b, hb⟩ := driftDim_fit h.sys h.dim
    show Inv W m nTs sympl hasPhase scale s (driftDim W o).1
    rw [hb]
    exact { h with dim := .inr rfl }
  | readOmega =>
    show Inv W m nTs sympl hasPhase scale s (if o.sympl = true then (getOmega W o).1 else o)
    split
    · rename_i hs
      have ho : o.omega = none ∨ o.omega = some (s.dim / 2) := h.omega.imp id And.right
      obtain ⟨_, hb | ⟨b, hb⟩, _⟩ := omega_fit h.sys h.dim ho
      · rw [hb]; exact h
      · rw [hb]
        refine { h with dim := .inr rfl, omega := .inr ⟨hs, rfl⟩, phase := ?_ }
        exact h.phase.imp id fun hp => ⟨hp.1, rfl⟩
    · exact h
  | init => exact inv_init h

theorem inv_run (h : Inv W m nTs sympl hasPhase scale s o) (ops : List (Op V))
    (ho : ∀ op ∈ ops, OpFits W m s op) : Inv W m nTs sympl hasPhase scale s (run W o ops) := by
  induction ops generalizing o with
  | nil => exact h
  | cons op r ih =>
    exact ih (inv_step h op (ho op (List.mem_cons_self ..)))
      fun x hx => ho x (List.mem_cons_of_mem _ hx)

theorem inv_new {S : System V} (hS : Fits W m s S) :
    Inv W m nTs sympl hasPhase scale s (new m nTs sympl hasPhase scale S) :=
  { sys := hS
    mem := ⟨rfl, .inl rfl, .inl rfl, .inl rfl, .inl rfl, .inl rfl⟩
    nTs := rfl, sympl := rfl, hasPhase := rfl, num := .inl rfl
    td := fun h => by cases h
    dim := .inl rfl, omega := .inl rfl, phase := .inl rfl, scale := .inl rfl }

theorem prepare_known (h : Inv W m nTs sympl hasPhase scale s o) {S : System V}
    (hS : Fits W m s S) :
    (prepare W o S).2 = (outcome W (before m nTs sympl hasPhase s { o with sys := S })).2 ∧
      ((prepare W o S).2 = .ok () → (prepare W o S).1 = ready m nTs sympl hasPhase scale s S) := by
  have h1 : Inv W m nTs sympl hasPhase scale s { o with sys := S } := { h with sys := hS }
  obtain ⟨i1, i2, i3, i4⟩ := inv_readNum h1
  have hsys : (readNum { o with sys := S }).1.sys = S := by rw [i3]
  have hn : (readNum { o with sys := S }).1.num = some s.n := by rw [i3]
  obtain ⟨j1, j2⟩ := init_known i1 hn
  refine ⟨?_, fun hx => ?_⟩
  · show (init W _).2 = _
    rw [j1]
    exact outcome_congr _ hsys
  · show (init W _).1 = _
    rw [j2 hx, hsys]

/-- What is kept from one object to the next. -/
structure Keeps (o p : Obj K V) : Prop where
  drift : p.sys.drift = o.sys.drift
  initial : p.sys.initial = o.sys.initial
  target : p.sys.target = o.sys.target
  ctrls : p.sys.ctrls = o.sys.ctrls ∨ p.sys.ctrls = convert o.sys.ctrls
  num : ∀ n, o.num = some n → p.num = some n ∧ p.tdCtrl = o.tdCtrl
  scale : ∀ x, o.scale = some x → p.scale = some x
  omega : ∀ n, o.omega = some n → p.omega = some n
  phase : ∀ n, o.phase = some n → p.phase = some n
  dtype : ∀ d, o.mem.operDtype = some d → p.mem.operDtype = some d
  checked : o.checked = true → p.checked = true ∧ p.sys.ctrls = o.sys.ctrls

theorem convert_convert (c : Ctrls V) : convert (convert c) = convert c := by
  cases c <;> rfl

theorem Keeps.refl (o : Obj K V) : Keeps o o :=
  ⟨rfl, rfl, rfl, .inl rfl, fun _ h => ⟨h, rfl⟩, fun _ h => h, fun _ h => h, fun _ h => h,
    fun _ h => h, fun h => ⟨h, rfl⟩⟩

theorem Keeps.trans {o p q : Obj K V} (h : Keeps o p) (g : Keeps p q) : Keeps o q where
  drift := g.drift.trans h.drift
  initial := g.initial.trans h.initial
  target := g.target.trans h.target
  ctrls := by
    rcases h.ctrls with h1 | h1 <;> rcases g.ctrls with g1 | g1 <;> rw [g1, h1]
    · exact .inl rfl
    · exact .inr rfl
    · exact .inr rfl
    · exact .inr (convert_convert _)
  num n hn := ⟨(g.num n (h.num n hn).1).1, (g.num n (h.num n hn).1).2.trans (h.num n hn).2⟩
  scale x hx := g.scale x (h.scale x hx)
  omega x hx := g.omega x (h.omega x hx)
  phase x hx := g.phase x (h.phase x hx)
  dtype x hx := g.dtype x (h.dtype x hx)
  checked hx := ⟨(g.checked (h.checked hx).1).1,
    (g.checked (h.checked hx).1).2.trans (h.checked hx).2⟩

theorem keeps_check (o : Obj K V) : Keeps o (if o.checked = true then o else o.check) := by
  split
  · exact .refl o
  · rename_i hc
    exact ⟨rfl, rfl, rfl, .inr rfl, fun _ h => ⟨h, rfl⟩, fun _ h => h, fun _ h => h, fun _ h => h,
      fun _ h => h, fun h => (hc h).elim⟩

theorem keeps_refresh (o : Obj K V) : Keeps o (refreshDrift W o).1 := by
  unfold refreshDrift
  split <;> exact { Keeps.refl o with }

theorem keeps_driftDim (o : Obj K V) : Keeps o (driftDim W o).1 := by
  have := keeps_refresh (W := W) o
  unfold driftDim
  split
  · exact .refl o
  · revert this
    cases refreshDrift W o with
    | mk p r => cases r <;> exact fun h => h

theorem keeps_omega (o : Obj K V) : Keeps o (getOmega W o).1 := by
  have := keeps_driftDim (W := W) o
  unfold getOmega
  split
  · exact .refl o
  · rename_i hn
    revert this
    cases driftDim W o with
    | mk p r =>
      cases r with
      | error e => exact fun h => h
      | ok N => exact fun h => { h with omega := fun n hx => by rw [hn] at hx; cases hx }

theorem keeps_phase (o : Obj K V) : Keeps o (initPhase W o).1 := by
  unfold initPhase
  split
  · have := keeps_omega (W := W) o
    unfold getPhase
    split
    · exact .refl o
    · rename_i hn
      revert this
      cases getOmega W o with
      | mk p r =>
        cases r with
        | error e => exact fun h => h
        | ok N => exact fun h => { h with phase := fun n hx => by rw [hn] at hx; cases hx }
  · split
    · exact .refl o
    · exact { Keeps.refl o with }

theorem keeps_mem (o : Obj K V) : Keeps o (setMem W o).1 := by
  have key : ∀ N nnz, Keeps o { o with mem := setMemory o.mem N nnz } := by
    intro N nnz
    refine { Keeps.refl o with dtype := fun d hd => ?_ }
    simp only [setMemory_eq, hd, Option.getD_some]
  unfold setMem
  split
  · split
    · exact .refl o
    · exact key _ _
  · exact key _ _

theorem keeps_count (o : Obj K V) (h : o.num = none) : Keeps o o.count.1 := by
  unfold Obj.count
  split <;> exact { Keeps.refl o with num := fun n hn => by rw [h] at hn; cases hn }

theorem keeps_num (o : Obj K V) : Keeps o (readNum o).1 := by
  unfold readNum
  split
  · exact .refl o
  · rename_i hn
    split
    · exact keeps_count o hn
    · rename_i hc
      have h1 : Keeps o { o.check with checked := true } :=
        ⟨rfl, rfl, rfl, .inr rfl, fun _ h => ⟨h, rfl⟩, fun _ h => h, fun _ h => h, fun _ h => h,
          fun _ h => h, fun h => (hc h).elim⟩
      exact h1.trans (keeps_count _ hn)

theorem keeps_scale (o : Obj K V) : Keeps o (initScale o) := by
  unfold initScale
  split
  · exact .refl o
  · rename_i hn
    exact { Keeps.refl o with scale := fun x hx => by rw [hn] at hx; cases hx }

/-- An initialisation keeps what was worked out before. -/
theorem keeps_init (o : Obj K V) : Keeps o (init W o).1 := by
  have k1 := keeps_check o
  unfold init
  revert k1
  generalize (if o.checked = true then o else o.check) = a
  intro k1
  have k2 := k1.trans (keeps_refresh (W := W) a)
  simp only
  revert k2
  cases refreshDrift W a with
  | mk b r =>
  cases r with
  | error e => exact fun h => h
  | ok _ =>
  intro k2
  have k3 := k2.trans (keeps_phase (W := W) b)
  simp only
  revert k3
  cases initPhase W b with
  | mk c r =>
  cases r with
  | error e => exact fun h => h
  | ok _ =>
  intro k3
  have k4 := k3.trans (keeps_mem (W := W) c)
  simp only
  revert k4
  cases setMem W c with
  | mk d r =>
  cases r with
  | error e => exact fun h => h
  | ok _ =>
  intro k4
  have k5 := k4.trans (keeps_num d)
  simp only
  split
  · exact k4
  · cases containers W (readNum d).1 (readNum d).2 with
    | error e => exact k5
    | ok _ =>
      have k6 : Keeps o { (readNum d).1 with used := some (readNum d).1.sys } := { k5 with }
      exact k6.trans (keeps_scale _)

/-- The drift attributes once they were refreshed. -/
def Same (o p : Obj K V) : Prop := p.dim = o.dim ∧ p.tdDrift = o.tdDrift

theorem same_phase {o : Obj K V} {n : Nat} (h : o.dim = some n) : Same o (initPhase W o).1 := by
  unfold initPhase getPhase getOmega driftDim
  cases o.omega <;> cases o.phase <;> cases o.sympl <;> cases o.hasPhase <;>
    simp [h, Same]

theorem same_mem (o : Obj K V) : Same o (setMem W o).1 := by
  unfold setMem
  split
  · split <;> exact ⟨rfl, rfl⟩
  · exact ⟨rfl, rfl⟩

theorem same_num (o : Obj K V) : Same o (readNum o).1 := by
  have hc : ∀ o : Obj K V, Same o o.count.1 := by
    intro o
    unfold Obj.count
    split <;> exact ⟨rfl, rfl⟩
  unfold readNum
  split
  · exact ⟨rfl, rfl⟩
  · split
    · exact hc o
    · exact hc _

theorem same_scale (o : Obj K V) : Same o (initScale o) ∧ (initScale o).used = o.used ∧
    (initScale o).sys = o.sys := by
  unfold initScale
  split <;> exact ⟨⟨rfl, rfl⟩, rfl, rfl⟩

/-- What a successful initialisation takes from the drift. -/
theorem init_current (o : Obj K V) (h : (init W o).2 = .ok ()) :
    (init W o).1.used = some (init W o).1.sys ∧
    ((init W o).1.tdDrift = o.sys.drift.perSlot? ∧
      ∃ A, (o.sys.drift = .single A ∨ ∃ r, o.sys.drift = .perSlot (A :: r)) ∧
        (init W o).1.dim = some (W.rows A)) := by
  revert h
  unfold init
  have hd : (if o.checked = true then o else o.check).sys.drift = o.sys.drift := by
    split <;> rfl
  revert hd
  generalize (if o.checked = true then o else o.check) = a
  intro hd
  have key : (refreshDrift W a).2 = .ok () → (refreshDrift W a).1.tdDrift = o.sys.drift.perSlot? ∧
      ∃ A, (o.sys.drift = .single A ∨ ∃ r, o.sys.drift = .perSlot (A :: r)) ∧
        (refreshDrift W a).1.dim = some (W.rows A) := by
    unfold refreshDrift
    rw [hd]
    cases o.sys.drift with
    | single A => exact fun _ => ⟨rfl, A, .inl rfl, rfl⟩
    | perSlot l =>
      cases l with
      | nil => intro h; cases h
      | cons A r => exact fun _ => ⟨rfl, A, .inr ⟨r, rfl⟩, rfl⟩
  simp only
  revert key
  cases refreshDrift W a with
  | mk b r =>
  cases r with
  | error e => intro _ h; cases h
  | ok _ =>
  intro key
  obtain ⟨t1, A, hA, hdim⟩ := key rfl
  have s3 := same_phase (W := W) hdim
  simp only
  revert s3
  cases initPhase W b with
  | mk c r =>
  cases r with
  | error e => intro _ h; cases h
  | ok _ =>
  intro s3
  have s4 := same_mem (W := W) c
  simp only
  revert s4
  cases setMem W c with
  | mk d r =>
  cases r with
  | error e => intro _ h; cases h
  | ok _ =>
  intro s4
  have s5 := same_num d
  simp only
  split
  · intro h; cases h
  · cases containers W (readNum d).1 (readNum d).2 with
    | error e => intro h; cases h
    | ok _ =>
      intro _
      obtain ⟨s6, u1, u2⟩ := same_scale { (readNum d).1 with used := some (readNum d).1.sys }
      simp only at s3 s4 s5 s6 t1 hdim ⊢
      refine ⟨by rw [u1, u2], ?_, A, hA, ?_⟩
      · rw [s6.2, s5.2, s4.2, s3.2, t1]
      · rw [s6.1, s5.1, s4.1, s3.1, hdim]

/-- The loop of the generator. -/
theorem gen_loop (o : Obj K V) (W : World V) (S : System V) (amps : Nat → Nat → K) (k : Nat)
    (f : Nat → V) : ∀ (js : List Nat) (dg : V),
    (∀ j ∈ js, elem o.tdCtrl S.ctrls k j = .ok (.inl (f j))) →
    js.foldl (fun (r : Except PyErr V) j =>
      match r with
      | .error e => .error e
      | .ok dg =>
        match elem o.tdCtrl S.ctrls k j with
        | .error e => .error e
        | .ok (.inl A) => .ok (dg + amps k j • A)
        | .ok (.inr row) => W.addRow dg (row.map fun A => amps k j • A)) (.ok dg) =
      .ok (dg + (js.map fun j => amps k j • f j).sum) := by
  intro js
  induction js with
  | nil => intro dg _; simp
  | cons j r ih =>
    intro dg h
    rw [List.foldl_cons, h j (List.mem_cons_self ..)]
    simp only
    rw [ih _ fun x hx => h x (List.mem_cons_of_mem _ hx), List.map_cons, List.sum_cons, add_assoc]

/-- The generator of an object whose numbers are those of the system. -/
theorem gen_ready {S : System V} {amps : Nat → Nat → K} {k n : Nat}
    (hd : o.tdDrift = S.drift.perSlot?) (hn : o.num = some n)
    (hk : ∀ l, S.drift = .perSlot l → k < l.length)
    (hl : ∀ l, S.ctrls = .list l → o.tdCtrl = false ∧ n ≤ l.length)
    (ha : ∀ rows, S.ctrls = .array rows → o.tdCtrl = true ∧ k < rows.length ∧
      ∀ r ∈ rows, n ≤ r.length)
    (hne : ∀ rows, S.ctrls ≠ .nested rows) :
    generator W o S amps k = .ok (docGen S n amps k) := by
  have he : ∀ j ∈ List.range n, elem o.tdCtrl S.ctrls k j = .ok (.inl (ctrlOf S k j)) := by
    intro j hj
    rw [List.mem_range] at hj
    unfold ctrlOf
    cases hc : S.ctrls with
    | nested rows => exact (hne _ hc).elim
    | list l =>
      obtain ⟨h1, h2⟩ := hl _ hc
      have hj' : j < l.length := by omega
      simp [elem, h1, List.getElem?_eq_getElem hj', List.getD_eq_getElem?_getD]
    | array rows =>
      obtain ⟨h1, h2, h3⟩ := ha _ hc
      have hj' : j < (rows[k]).length := lt_of_lt_of_le hj (h3 _ (List.getElem_mem h2))
      simp [elem, h1, List.getElem?_eq_getElem h2, List.getElem?_eq_getElem hj',
        List.getD_eq_getElem?_getD]
  unfold generator docGen driftOf
  rw [hn, hd]
  cases hs : S.drift with
  | single A =>
    simp only [Drift.perSlot?, Option.getD_some]
    exact gen_loop o W S amps k _ _ A he
  | perSlot l =>
    have := hk _ hs
    simp only [Drift.perSlot?, Option.getD_some, List.getElem?_eq_getElem this,
      List.getD_eq_getElem?_getD]
    exact gen_loop o W S amps k _ _ l[k] he

end

end QTrl.Reuse
