import Verif.Model.MainScript
import Verif.Model.RunText
/-
  main_flowgo.py, the command-line entry point, on the texts of the files.
-/
namespace PyFlowGo
variable {α : Type} [Add α] [Sub α] [Mul α] [Neg α] [OfScientific α] [PyNum α]

/-- main_flowgo.py:28-109 run as a script on a disk of texts (`none`: still running after `fuel` iterations). As in
    `runTextOn`, the configuration is parsed once although each reader of the code parses the same file again; the script opens
    it by the name given on the command line and writes below the working directory. -/
def mainTextOn (grid : List α) (fuel : Nat) (F : TextFormat α) (configFile : String) (disk : List (String × List Char)) :
    Option (Except Err Unit × List (String × List Char)) :=
  match lookup disk (F.canon configFile) with
  | none => some (.error .fileNotFound, disk)
  | some text =>
    match jsonLoad F.float text with
    | .error e => some (.error e, disk)
    | .ok data =>
      match mainScriptOn grid fuel (textEnv F disk) configFile ⟨[(F.canon configFile, data)], [], []⟩ with
      | none => none
      | some (r, p) =>
        some (r, match p.results with
          | [] => disk
          | (name, t) :: _ => writeFile disk name (stored F.windows (t.text F.str)))

end PyFlowGo
