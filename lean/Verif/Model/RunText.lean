import Verif.Model.Run
import Verif.Model.JsonText
/-
  pyflowgo/run_flowgo.py on the texts of the files: the configuration, the slope profile and the crust-temperature profile are
  read as texts, the result file is written as a text.
-/
namespace PyFlowGo
variable {α : Type}

/-- What the platform decides: `float(text)`, `str` of a logged value, `str` of the other values that enter a file name,
    which file a path denotes, and whether text files are stored with Windows line ends. -/
structure TextFormat (α : Type) where
  float : List Char → Option α
  str : Cell α → List Char
  showOther : Json α → String
  canon : String → String
  windows : Bool

variable [Add α] [Sub α] [Mul α] [Neg α] [OfScientific α] [PyNum α]

omit [Add α] [Sub α] [Mul α] [Neg α] in
/-- The files a run opens while it prepares (flowgo_terrain_condition.py:81-111, flowgo_crust_temperature_model_field.py:71-77),
    read from the texts on the disk. A profile that cannot be parsed is treated like a file that cannot be opened: the run
    raises either way, with a ValueError or IndexError instead of FileNotFoundError (C73, C76 tell which). -/
def textEnv (F : TextFormat α) (disk : List (String × List Char)) : Env α :=
  { parseFloat := fun s => F.float s.toList
    showNum := fun x => String.ofList (F.str (.num x))
    showOther := F.showOther
    slopeFile := fun p => (lookup disk (F.canon p)).bind fun t => (slopeRows F.float (dataLines t)).toOption
    crustFile := fun p => (lookup disk (F.canon p)).bind fun t => (crustRows F.float (dataLines t)).toOption
    canon := F.canon }

/-- run_flowgo.py:30-109 `RunFlowgo().run(json_file, path_to_folder)` on a disk of texts (`none`: still running after `fuel`
    iterations), over an arbitrary depth grid. Every reader of the configuration parses the same file again; it is parsed once
    here. -/
def runTextOn (grid : List α) (fuel : Nat) (F : TextFormat α) (jsonFile folder : String) (disk : List (String × List Char)) :
    Option (Except Err Unit × List (String × List Char)) :=
  match lookup disk (F.canon jsonFile) with
  | none => some (.error .fileNotFound, disk)
  | some text =>
    match jsonLoad F.float text with
    | .error e => some (.error e, disk)
    | .ok data =>
      match runOn grid fuel (textEnv F disk) jsonFile folder (newRunner ⟨[(F.canon jsonFile, data)], [], []⟩) with
      | none => none
      | some (r, p) =>
        some (r, match p.results with
          | [] => disk
          | (name, t) :: _ => writeFile disk name (stored F.windows (t.text F.str)))

/-- With the real depth grid. -/
def runText (fuel : Nat) (F : TextFormat α) (jsonFile folder : String) (disk : List (String × List Char)) :
    Option (Except Err Unit × List (String × List Char)) := runTextOn depthGrid fuel F jsonFile folder disk

end PyFlowGo
