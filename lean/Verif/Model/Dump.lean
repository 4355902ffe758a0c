import Verif.Model.DumpLevel

/-
Model of what the dump objects record and write (dump.py): summary lines, the logs of
`OptimDump`, the items and summaries of `DynamicsDump`, and the files.

Text is a list of characters and a file a list of lines (without the line ends).  How numbers
and arrays become text is a parameter (`Fmt`).  Paths are triples of directory, base name and
kind of file; the directory is the one `dump_dir` has settled on.
-/

namespace QTrl.Dump

abbrev Text := List Char

/-! ### Summary lines -/

/-- A value of a summary item: the columns hold integers and floats. -/
inductive Val (R : Type) where
  | int (n : Nat)
  | real (r : R)

/-- A column: an entry each of `summary_property_names`, `summary_property_fmt_type` and
`summary_property_fmt_prec`. -/
structure Col where
  name : Text
  fmtType : Char
  fmtPrec : Nat

/-- How numbers and arrays are printed: `"{}".format(x)`, the default `"%.18e"` of
`np.savetxt`, `format(v, spec)` without padding, and `np.savetxt` of an array with a
delimiter. -/
structure Fmt (R G : Type) where
  str : R → Text
  sci : R → Text
  num : Val R → Char → Nat → Text
  savetxt : Text → G → List Text

/-- `max(len(name), min_col_width)`, the class attribute being 11. -/
def colWidth (name : Text) : Nat := max name.length 11

/-- `format(s, "{w}s")`: strings are padded on the right. -/
def padRight (w : Nat) (t : Text) : Text := t ++ List.replicate (w - t.length) ' '

/-- `format(v, "{w}...")` of a number: padded on the left. -/
def padLeft (w : Nat) (t : Text) : Text := List.replicate (w - t.length) ' ' ++ t

/-- The loop that puts the separator in front of all cells but the first (dump.py 965-971,
981-1006). -/
def joinLoop (sep : Text) : Nat → List Text → Text → Text
  | _, [], line => line
  | i, c :: cs, line => joinLoop sep (i + 1) cs ((if i > 0 then line ++ sep else line) ++ c)

/-- `sep.join(names)` (dump.py 973). -/
def joinText (sep : Text) : List Text → Text
  | [] => []
  | [c] => c
  | c :: cs => c ++ sep ++ joinText sep cs

/-- `DumpSummaryItem.get_header_line` (dump.py 962-974). -/
def headerLine (sep : Text) (cols : List Col) : Text :=
  if sep = [' '] then
    joinLoop sep 0 (cols.map fun c => padRight (colWidth c.name) c.name) []
  else joinText sep (cols.map Col.name)

variable {R G : Type}

/-- One cell of `get_value_line` (dump.py 990-1006). -/
def valueCell (F : Fmt R G) (sep : Text) (c : Col) (v : Option (Val R)) : Text :=
  match v with
  | some v =>
      if sep = [' '] then padLeft (colWidth c.name) (F.num v c.fmtType c.fmtPrec)
      else F.num v c.fmtType c.fmtPrec
  | none =>
      if sep = [' '] then padRight (colWidth c.name) "None".toList else "None".toList

/-- `DumpSummaryItem.get_value_line` (dump.py 979-1008); `vals` are the attributes named by
the columns, in their order. -/
def valueLine (F : Fmt R G) (sep : Text) (cols : List Col) (vals : List (Option (Val R))) :
    Text :=
  joinLoop sep 0 (List.zipWith (valueCell F sep) cols vals) []

/-- `OptimIterSummary` (optimizer.py 1301-1355). -/
structure IterSum (R : Type) where
  idx : Nat
  iterNum : Option Nat
  fidCall : Option Nat
  gradCall : Option Nat
  fidErr : Option R
  gradNorm : Option R
  wallTime : R

/-- Its columns (optimizer.py 1331-1345). -/
def iterCols : List Col :=
  [⟨"idx".toList, 'd', 0⟩, ⟨"iter_num".toList, 'd', 0⟩, ⟨"fid_func_call_num".toList, 'd', 0⟩,
   ⟨"grad_func_call_num".toList, 'd', 0⟩, ⟨"fid_err".toList, 'g', 4⟩,
   ⟨"grad_norm".toList, 'g', 4⟩, ⟨"wall_time".toList, 'g', 2⟩]

/-- The values of its columns. -/
def IterSum.vals (s : IterSum R) : List (Option (Val R)) :=
  [some (.int s.idx), s.iterNum.map .int, s.fidCall.map .int, s.gradCall.map .int,
   s.fidErr.map .real, s.gradNorm.map .real, some (.real s.wallTime)]

/-- `EvoCompSummary` (tslotcomp.py 651-746). -/
structure EvoSum (R : Type) where
  idx : Nat
  evoDumpIdx : Option Nat
  iterNum : Option Nat
  fidCall : Option Nat
  gradCall : Option Nat
  ampsChanged : Nat
  tslotsChanged : Nat
  wallDynGen : R
  wallProp : R
  wallFwd : R
  wallOnwd : R

/-- Its columns (tslotcomp.py 697-727). -/
def evoCols : List Col :=
  [⟨"idx".toList, 'd', 0⟩, ⟨"evo_dump_idx".toList, 'd', 0⟩, ⟨"iter_num".toList, 'd', 0⟩,
   ⟨"fid_func_call_num".toList, 'd', 0⟩, ⟨"grad_func_call_num".toList, 'd', 0⟩,
   ⟨"num_amps_changed".toList, 'd', 0⟩, ⟨"num_timeslots_changed".toList, 'd', 0⟩,
   ⟨"wall_time_dyn_gen_compute".toList, 'g', 3⟩, ⟨"wall_time_prop_compute".toList, 'g', 3⟩,
   ⟨"wall_time_fwd_prop_compute".toList, 'g', 3⟩, ⟨"wall_time_onwd_prop_compute".toList, 'g', 3⟩]

/-- The values of its columns. -/
def EvoSum.vals (s : EvoSum R) : List (Option (Val R)) :=
  [some (.int s.idx), s.evoDumpIdx.map .int, s.iterNum.map .int, s.fidCall.map .int,
   s.gradCall.map .int, some (.int s.ampsChanged), some (.int s.tslotsChanged),
   some (.real s.wallDynGen), some (.real s.wallProp), some (.real s.wallFwd),
   some (.real s.wallOnwd)]

/-! ### Files -/

/-- The operators an evolution dump can contain. -/
inductive Section where
  | ctrlAmps
  | dynGen
  | prop
  | propGrad
  | fwdEvo
  | onwdEvo
  | ontoEvo
  deriving DecidableEq

/-- The kinds of file. -/
inductive FName where
  | summary
  | fidErr
  | gradNorm
  | gradients (n : Nat)
  | evo (idx : Nat) (s : Section)
  deriving DecidableEq

structure Path where
  dir : String
  base : String
  name : FName
  deriving DecidableEq

/-- File contents; `none` for a file that does not exist. -/
abbrev Files := Path → Option (List Text)

/-- `open(p, "w")`, write, close. -/
def writeFile (fs : Files) (p : Path) (ls : List Text) : Files :=
  fun q => if q = p then some ls else fs q

/-- `open(p, "a")`, write, close. -/
def appendFile (fs : Files) (p : Path) (ls : List Text) : Files :=
  fun q => if q = p then some ((fs p).getD [] ++ ls) else fs q

/-! ### OptimDump -/

/-- The attributes of `OptimDump` apart from the level; `sumPath`, `fidPath` and `normPath`
are the cached file paths. -/
structure ODump (R G : Type) where
  flags : OptFlags
  write : Bool
  dir : String
  base : String
  sep : Text
  dataSep : Text
  sumPath : Option Path
  fidPath : Option Path
  normPath : Option Path
  iterSummary : List (IterSum R)
  fidErrLog : List R
  gradNormLog : List R
  gradLog : List G

/-- The paths `summary_file`, `fid_err_file` and `grad_norm_file` (dump.py 198-205, 340-347,
361-368): made up once and kept. -/
def ODump.sumFile (d : ODump R G) : Path := d.sumPath.getD ⟨d.dir, d.base, .summary⟩
def ODump.fidFile (d : ODump R G) : Path := d.fidPath.getD ⟨d.dir, d.base, .fidErr⟩
def ODump.normFile (d : ODump R G) : Path := d.normPath.getD ⟨d.dir, d.base, .gradNorm⟩

/-- The lines written for a summary item, by write-through and `writeout` alike
(dump.py 324-337, 421-438): the header in front of item 0. -/
def iterLines (F : Fmt R G) (sep : Text) (s : IterSum R) : List Text :=
  if s.idx = 0 then [headerLine sep iterCols, valueLine F sep iterCols s.vals]
  else [valueLine F sep iterCols s.vals]

/-- `add_iter_summary` (dump.py 316-338); the argument is the optimiser's `iter_summary`. -/
def ODump.addIter (F : Fmt R G) (d : ODump R G) (fs : Files) (cur : Option (IterSum R)) :
    ODump R G × Files × Except PyErr Unit :=
  match cur with
  | none => (d, fs, .error .runtimeError)
  | some s =>
      let ois := { s with idx := d.iterSummary.length }
      let d := { d with iterSummary := d.iterSummary ++ [ois] }
      if d.write then
        let p := d.sumFile
        let fs := if ois.idx = 0 then writeFile fs p (iterLines F d.sep ois)
          else appendFile fs p (iterLines F d.sep ois)
        ({ d with sumPath := some p }, fs, .ok ())
      else (d, fs, .ok ())

/-- `update_fid_err_log` (dump.py 349-359). -/
def ODump.addFidErr (F : Fmt R G) (d : ODump R G) (fs : Files) (x : R) : ODump R G × Files :=
  let d := { d with fidErrLog := d.fidErrLog ++ [x] }
  if d.write then
    let p := d.fidFile
    let fs := if d.fidErrLog.length = 1 then writeFile fs p [F.str x]
      else appendFile fs p [F.str x]
    ({ d with fidPath := some p }, fs)
  else (d, fs)

/-- `update_grad_norm_log` (dump.py 370-380). -/
def ODump.addGradNorm (F : Fmt R G) (d : ODump R G) (fs : Files) (x : R) : ODump R G × Files :=
  let d := { d with gradNormLog := d.gradNormLog ++ [x] }
  if d.write then
    let p := d.normFile
    let fs := if d.gradNormLog.length = 1 then writeFile fs p [F.str x]
      else appendFile fs p [F.str x]
    ({ d with normPath := some p }, fs)
  else (d, fs)

/-- `update_grad_log` (dump.py 382-390). -/
def ODump.addGrad (F : Fmt R G) (d : ODump R G) (fs : Files) (g : G) : ODump R G × Files :=
  let d := { d with gradLog := d.gradLog ++ [g] }
  if d.write then
    (d, writeFile fs ⟨d.dir, d.base, .gradients d.gradLog.length⟩ (F.savetxt d.dataSep g))
  else (d, fs)

/-- The loop over the gradients in `writeout` (dump.py 465-479), from number `n + 1` on. -/
def writeGrads (F : Fmt R G) (dir base : String) (sep : Text) : Nat → List G → Files → Files
  | _, [], fs => fs
  | n, g :: gs, fs =>
      writeGrads F dir base sep (n + 1) gs
        (writeFile fs ⟨dir, base, .gradients (n + 1)⟩ (F.savetxt sep g))

/-- `writeout()` without a file argument (dump.py 392-488). -/
def ODump.writeout (F : Fmt R G) (d : ODump R G) (fs : Files) : Files :=
  let fs := if d.flags.summary then
      writeFile fs d.sumFile (d.iterSummary.flatMap (iterLines F d.sep)) else fs
  let fs := if d.flags.fidErr then writeFile fs d.fidFile (d.fidErrLog.map F.sci) else fs
  let fs := if d.flags.gradNorm then writeFile fs d.normFile (d.gradNormLog.map F.sci) else fs
  if d.flags.grad then writeGrads F d.dir d.base d.dataSep 0 d.gradLog fs else fs

/-- What the optimiser reports and the user does.  The first three are the callbacks
(optimizer.py 673-674, 720-725, 748-749); the summary is the optimiser's current one. -/
inductive OOp (R G : Type) where
  | fidErr (x : R)
  | grad (norm : R) (g : G)
  | iter (s : IterSum R)
  | setFlags (f : OptFlags)
  /-- `clear()` (dump.py 273-277) -/
  | clear
  /-- assigning `fname_base` (dump.py 191-196) -/
  | setBase (b : String)

/-- One operation: the callbacks record only what is enabled. -/
def ODump.step (F : Fmt R G) (x : ODump R G × Files) : OOp R G → ODump R G × Files
  | .fidErr e => if x.1.flags.fidErr then x.1.addFidErr F x.2 e else x
  | .grad n g =>
      let x := if x.1.flags.gradNorm then x.1.addGradNorm F x.2 n else x
      if x.1.flags.grad then x.1.addGrad F x.2 g else x
  | .iter s =>
      if x.1.flags.summary then
        let r := x.1.addIter F x.2 (some s)
        (r.1, r.2.1)
      else x
  | .setFlags f => ({ x.1 with flags := f }, x.2)
  | .clear => ({ x.1 with iterSummary := [], fidErrLog := [], gradNormLog := [], gradLog := [] },
      x.2)
  | .setBase b => ({ x.1 with base := b, sumPath := none }, x.2)

/-- A history. -/
def ODump.run (F : Fmt R G) (x : ODump R G × Files) (ops : List (OOp R G)) :
    ODump R G × Files :=
  ops.foldl (ODump.step F) x

/-- A dump object just created (`reset`, dump.py 262-271 and 86-99) with flags of its level. -/
def ODump.fresh (flags : OptFlags) (write : Bool) (dir : String) : ODump R G :=
  { flags := flags, write := write, dir := dir, base := "optimdump", sep := [' ']
    dataSep := [' '], sumPath := none, fidPath := none, normPath := none
    iterSummary := [], fidErrLog := [], gradNormLog := [], gradLog := [] }

/-! ### DynamicsDump -/

/-- The lists of operators of `Dynamics` at the time of a dump, of an arbitrary type of
operators; `propGrad` is indexed by slot and control, the last three exist if they are used
(dynamics.py 762-815). -/
structure Snapshot (A X : Type) where
  ctrlAmps : A
  dynGen : List X
  prop : List X
  propGrad : Option (List (List X))
  fwdEvo : List X
  onwdEvo : Option (List X)
  ontoEvo : Option (List X)

/-- `EvoCompDumpItem` (dump.py 758-780). -/
structure EvoItem (A X : Type) where
  idx : Nat
  ctrlAmps : Option A
  dynGen : Option (List X)
  prop : Option (List X)
  propGrad : Option (List (List X))
  fwdEvo : Option (List X)
  onwdEvo : Option (List X)
  ontoEvo : Option (List X)

variable {A X : Type}

/-- The labels in front of the operators (dump.py 838-939). -/
inductive Label where
  | slot (s : Section) (k : Nat)
  | ctrl (k j : Nat)
  deriving DecidableEq

/-- A part of a file: a label line with an array, or the array of amplitudes. -/
inductive Block (A X : Type) where
  | amps (a : A)
  | oper (l : Label) (x : X)

/-- What a sequence of writes has written, and the exception that ended it, if any.  A label
line written in front of an array that cannot be written is left out. -/
abbrev Written (α : Type) := List α × Option PyErr

/-- A loop `for dg in self.dyn_gen: write the label for k; savetxt(src[k]); k += 1`
(dump.py 838-845, 859-862, 900-903, 917-920, 934-939): `m` steps from `k` on. -/
def slotLoop (s : Section) (src : Option (List X)) : Nat → Nat → Written (Block A X)
  | 0, _ => ([], none)
  | m + 1, k =>
      match src with
      | none => ([], some .typeError)
      | some l =>
          match l[k]? with
          | none => ([], some .indexError)
          | some x =>
              let r := slotLoop s src m (k + 1)
              (.oper (.slot s k) x :: r.1, r.2)

/-- `for dg in self.dyn_gen`: raises TypeError if the generators were not dumped. -/
def overGens (it : EvoItem A X) (s : Section) (src : Option (List X)) : Written (Block A X) :=
  match it.dynGen with
  | none => ([], some .typeError)
  | some dg => slotLoop s src dg.length 0

/-- The double loop over the gradients (dump.py 876-886). -/
def gradBlocks (pg : List (List X)) : List (Block A X) :=
  (pg.zipIdx).flatMap fun (row, k) => (row.zipIdx).map fun (x, j) => .oper (.ctrl k j) x

/-- A section if its operators were dumped, and what follows unless it raises. -/
def addSection (present : Bool) (s : Section) (w : Written (Block A X))
    (rest : Written (Section × List (Block A X))) : Written (Section × List (Block A X)) :=
  if present then
    match w.2 with
    | some e => ([(s, w.1)], some e)
    | none => ((s, w.1) :: rest.1, rest.2)
  else rest

/-- The sections `EvoCompDumpItem.writeout` writes (dump.py 782-944), each to its own file or
after its heading to the given one.  The last two write the forward evolution (lines 919,
938). -/
def EvoItem.sections (it : EvoItem A X) : Written (Section × List (Block A X)) :=
  addSection it.ctrlAmps.isSome .ctrlAmps (it.ctrlAmps.toList.map .amps, none) <|
  addSection it.dynGen.isSome .dynGen (overGens it .dynGen it.dynGen) <|
  addSection it.prop.isSome .prop (overGens it .prop it.prop) <|
  addSection it.propGrad.isSome .propGrad (gradBlocks (it.propGrad.getD []), none) <|
  addSection it.fwdEvo.isSome .fwdEvo (overGens it .fwdEvo it.fwdEvo) <|
  addSection it.onwdEvo.isSome .onwdEvo (overGens it .onwdEvo it.fwdEvo) <|
  addSection it.ontoEvo.isSome .ontoEvo (overGens it .ontoEvo it.fwdEvo) <|
  ([], none)

/-- `DynamicsDump`: flags, `write_to_file`, file names, items and summaries. -/
structure DDump (R A X : Type) where
  flags : DynFlags
  write : Bool
  dir : String
  base : String
  sep : Text
  dataSep : Text
  sumPath : Option Path
  evoDumps : List (EvoItem A X)
  evoSummary : List (EvoSum R)

/-- `summary_file` (dump.py 198-205). -/
def DDump.sumFile (d : DDump R A X) : Path := d.sumPath.getD ⟨d.dir, d.base, .summary⟩

/-- The text of a section: labels and arrays, the latter printed with a delimiter. -/
abbrev Render (A X : Type) := Text → List (Block A X) → List Text

/-- Writing the sections of an item to files named after its number (dump.py 812-944). -/
def writeSections (render : Render A X) (dir base : String) (sep : Text) (idx : Nat) :
    List (Section × List (Block A X)) → Files → Files
  | [], fs => fs
  | (s, b) :: r, fs =>
      writeSections render dir base sep idx r
        (writeFile fs ⟨dir, base, .evo idx s⟩ (render sep b))

/-- `item.writeout()` (dump.py 782-944). -/
def DDump.writeItem (render : Render A X) (d : DDump R A X) (fs : Files) (it : EvoItem A X) :
    Files × Except PyErr Unit :=
  (writeSections render d.dir d.base d.dataSep it.idx it.sections.1 fs,
    match it.sections.2 with
    | some e => .error e
    | none => .ok ())

/-- The item `add_evo_dump` makes (dump.py 621-638). -/
def DDump.newItem (d : DDump R A X) (s : Snapshot A X) : EvoItem A X :=
  { idx := d.evoDumps.length
    ctrlAmps := if d.flags.amps then some s.ctrlAmps else none
    dynGen := if d.flags.dynGen then some s.dynGen else none
    prop := if d.flags.prop then some s.prop else none
    propGrad := if d.flags.propGrad then s.propGrad else none
    fwdEvo := if d.flags.fwd then some s.fwdEvo else none
    onwdEvo := if d.flags.onwd then s.onwdEvo else none
    ontoEvo := if d.flags.onto then s.ontoEvo else none }

/-- `add_evo_dump` (dump.py 619-642): the new item is in the list before it is written out. -/
def DDump.addEvo (render : Render A X) (d : DDump R A X) (fs : Files) (s : Snapshot A X) :
    DDump R A X × Files × Except PyErr Nat :=
  let it := d.newItem s
  let d := { d with evoDumps := d.evoDumps ++ [it] }
  if d.write then
    let w := d.writeItem render fs it
    match w.2 with
    | .error e => (d, w.1, .error e)
    | .ok () => (d, w.1, .ok it.idx)
  else (d, fs, .ok it.idx)

/-- The lines written for a summary item (dump.py 659-669, 710-725). -/
def evoLines (F : Fmt R G) (sep : Text) (s : EvoSum R) : List Text :=
  if s.idx = 0 then [headerLine sep evoCols, valueLine F sep evoCols s.vals]
  else [valueLine F sep evoCols s.vals]

/-- The summary as it is recorded (dump.py 649-655): `stats` are the call numbers, if the
dynamics object has a statistics object. -/
def newSummary (n : Nat) (s : EvoSum R) (stats : Option (Nat × Nat × Nat)) (item : Option Nat) :
    EvoSum R :=
  let ecs := { s with idx := n, evoDumpIdx := item }
  match stats with
  | some (i, f, g) => { ecs with iterNum := some i, fidCall := some f, gradCall := some g }
  | none => ecs

/-- `add_evo_comp_summary` (dump.py 644-672). -/
def DDump.addSummary (F : Fmt R G) (d : DDump R A X) (fs : Files) (cur : Option (EvoSum R))
    (stats : Option (Nat × Nat × Nat)) (item : Option Nat) :
    DDump R A X × Files × Except PyErr Unit :=
  match cur with
  | none => (d, fs, .error .runtimeError)
  | some s =>
      let ecs := newSummary d.evoSummary.length s stats item
      let d := { d with evoSummary := d.evoSummary ++ [ecs] }
      if d.write then
        let p := d.sumFile
        let fs := if ecs.idx = 0 then writeFile fs p (evoLines F d.sep ecs)
          else appendFile fs p (evoLines F d.sep ecs)
        ({ d with sumPath := some p }, fs, .ok ())
      else (d, fs, .ok ())

/-- The first half of `dump_current` (tslotcomp.py 143-148): the operators, if any are to be
dumped. -/
def DDump.dumpItem (render : Render A X) (d : DDump R A X) (fs : Files) (s : Snapshot A X) :
    DDump R A X × Files × Except PyErr (Option Nat) :=
  if (dynKind false false).any d.flags then
    match d.addEvo render fs s with
    | (d, fs, .error e) => (d, fs, .error e)
    | (d, fs, .ok i) => (d, fs, .ok (some i))
  else (d, fs, .ok none)

/-- `dump_current` (tslotcomp.py 134-155), called after each recomputation of the evolution
(tslotcomp.py 351-352). -/
def DDump.dumpCurrent (F : Fmt R G) (render : Render A X) (d : DDump R A X) (fs : Files)
    (s : Snapshot A X) (cur : Option (EvoSum R)) (stats : Option (Nat × Nat × Nat)) :
    DDump R A X × Files × Except PyErr Unit :=
  match d.dumpItem render fs s with
  | (d, fs, .error e) => (d, fs, .error e)
  | (d, fs, .ok item) =>
      if d.flags.summary then d.addSummary F fs cur stats item
      else (d, fs, .ok ())

/-- Writing all items (dump.py 735-736), until one raises. -/
def DDump.writeItems (render : Render A X) (d : DDump R A X) :
    List (EvoItem A X) → Files → Files × Except PyErr Unit
  | [], fs => (fs, .ok ())
  | it :: its, fs =>
      match d.writeItem render fs it with
      | (fs, .error e) => (fs, .error e)
      | (fs, .ok ()) => d.writeItems render its fs

/-- `writeout()` without a file argument (dump.py 674-745). -/
def DDump.writeout (F : Fmt R G) (render : Render A X) (d : DDump R A X) (fs : Files) :
    Files × Except PyErr Unit :=
  let fs := if d.flags.summary then
      writeFile fs d.sumFile (d.evoSummary.flatMap (evoLines F d.sep)) else fs
  d.writeItems render d.evoDumps fs

/-- What happens to a dynamics dump. -/
inductive DOp (R A X : Type) where
  | dump (s : Snapshot A X) (cur : EvoSum R) (stats : Option (Nat × Nat × Nat))
  | setFlags (f : DynFlags)
  /-- `clear()` (dump.py 547-549) -/
  | clear

/-- One operation; exceptions are caught by the user. -/
def DDump.step (F : Fmt R G) (render : Render A X) (x : DDump R A X × Files) :
    DOp R A X → DDump R A X × Files
  | .dump s cur st =>
      let r := x.1.dumpCurrent F render x.2 s (some cur) st
      (r.1, r.2.1)
  | .setFlags f => ({ x.1 with flags := f }, x.2)
  | .clear => ({ x.1 with evoDumps := [], evoSummary := [] }, x.2)

/-- A history. -/
def DDump.run (F : Fmt R G) (render : Render A X) (x : DDump R A X × Files)
    (ops : List (DOp R A X)) : DDump R A X × Files :=
  ops.foldl (DDump.step F render) x

/-- A dump object just created (`reset`, dump.py 540-545 and 86-99) with flags of its level. -/
def DDump.fresh (flags : DynFlags) (write : Bool) (dir : String) : DDump R A X :=
  { flags := flags, write := write, dir := dir, base := "dyndump", sep := [' ']
    dataSep := [' '], sumPath := none, evoDumps := [], evoSummary := [] }

end QTrl.Dump
