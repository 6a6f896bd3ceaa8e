import Verif.Model.Generate

/-!
Model of `dump_templates` (data.cpp 217-229) with the loop of `save_to_file`
(data.cpp 103-133).

Simplifications: the directory exists or has been created; the entries of the files are no
symbolic links; the messages `saving ...` are left out.
-/

namespace Gdo.Gen
open Gdo Tpl Opt

/-- The order of list.h. -/
def allTemplates : List TName :=
  [.license, .filenameMacros, .commonHeader, .commonBody, .cHeader, .cBody, .cxxHeader, .cxxBody, .minCHeader, .minCxxHeader,
   .pluginHeader, .pluginBody]

/-- The path of a dumped template (data.cpp 108-109). -/
def dumpPath (dir : Str) (t : TName) : Str := appendMissingSeparator dir ++ t.file

/-- `save_to_file` (data.cpp 103-133): a new file is created, an existing one truncated. -/
def dumpOne (env : Env) (dir : Str) (t : TName) : M Unit :=
  match env.res (dumpPath dir t) with
  | .at l => do
    let st ← get
    match st.node l with
    | none =>
      if env.canCreate l then
        modify fun st => { st with node := fun k => if k = l then some (.file (saveToFile (env.builtin t))) else st.node k }
      else throw (.write (dumpPath dir t))
    | some (.file _) =>
      if env.canWrite l then
        modify fun st => { st with node := fun k => if k = l then some (.file (saveToFile (env.builtin t))) else st.node k }
      else throw (.write (dumpPath dir t))
    | some _ => throw (.write (dumpPath dir t))
  | _ => throw (.write (dumpPath dir t))

/-- The templates one after the other. -/
def dumpAll (env : Env) (dir : Str) : List TName → M Unit
  | [] => pure ()
  | t :: ts => do
    dumpOne env dir t
    dumpAll env dir ts

/-- `dump_templates` (data.cpp 217-229). -/
def dumpTemplates (env : Env) (dir : Str) : M Unit := dumpAll env dir allTemplates

end Gdo.Gen
