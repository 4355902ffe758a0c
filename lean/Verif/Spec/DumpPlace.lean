import Verif.Model.DumpPlace

/-
Words for where the files of a dump should be.
-/

namespace QTrl.Spec.Io

open QTrl.Io

/-- The base name, the extension that the settings of a history leave. -/
def lastBase (b : String) : List FileOp → String
  | [] => b
  | .setBase v :: ops => lastBase v ops
  | _ :: ops => lastBase b ops

def lastExt (e : String) : List FileOp → String
  | [] => e
  | .setExt v :: ops => lastExt v ops
  | _ :: ops => lastExt e ops

/-- Settings, before any file name was asked for and without a name for the summary. -/
def Setting : FileOp → Prop
  | .setDir _ | .setBase _ | .setExt _ | .readDir => True
  | _ => False

/-- Uses of the dump after that. -/
def Use : FileOp → Prop
  | .readDir | .path _ => True
  | _ => False

/-- The documented name of a file: base name, kind and extension. -/
def documented (k : FileKind) (base ext : String) : String :=
  let kind := match k with
    | .summary => "summary"
    | .fidErr => "fid_err_log"
    | .gradNorm => "grad_norm_log"
    | .grad n => "fid_err_gradients" ++ toString n
  base ++ ("-" ++ kind ++ "." ++ ext)

/-- The file of that name in a directory. -/
def inFolder (dir name : String) : String :=
  if dir.toList.getLast? = some '/' then dir ++ name else dir ++ "/" ++ name

end QTrl.Spec.Io
