import Verif.Exec.FloatNum
import Verif.Model.Run
import Lean.Data.Json
/-
  Runs the model, with `Float` numbers, on a configuration file and a slope file and prints the log.
  Usage: lake env lean --run Verif/Exec/Main.lean config.json slope.txt
-/
open PyFlowGo

instance : Inhabited (PyFlowGo.Json Float) := ⟨.null⟩

partial def conv (j : Lean.Json) : PyFlowGo.Json Float :=
  match j with
  | .null => .null
  | .bool b => .bool b
  | .num n => if n.exponent == 0 then .int n.mantissa else .num n.toFloat
  | .str s => .str s
  | .arr a => .arr (a.toList.map conv)
  | .obj o => .obj (o.toList.map fun (k, v) => (k, conv v))

def parseNum (s : String) : Option Float :=
  let (neg, s) := if s.startsWith "-" then (true, (s.drop 1).toString) else (false, s)
  match Lean.Json.parse s with
  | .ok (.num n) => some (if neg then -n.toFloat else n.toFloat)
  | _ => none

def parseSlope (txt : String) : List (SlopeLine Float) :=
  (txt.splitOn "\n").drop 1 |>.filterMap fun line =>
    match ((line.splitOn "\t").map fun s => parseNum s.trimAscii.toString) with
    | some a :: some b :: some c :: some d :: some e :: _ => some ⟨a, b, c, d, e⟩
    | _ => none

def showCell : Option (Cell Float) → String
  | some (.num x) => toString x
  | some (.text x) => toString x
  | none => ""

def main (args : List String) : IO Unit := do
  let cfg ← IO.FS.readFile args[0]!
  let slope ← IO.FS.readFile args[1]!
  let lines := parseSlope slope
  IO.eprintln s!"{lines.length} slope lines"
  match Lean.Json.parse cfg with
  | .error e => IO.eprintln e
  | .ok j =>
    let env : Env Float := 
      { parseFloat := parseNum
        showNum := toString
        showOther := fun _ => ""
        slopeFile := fun _ => some lines
        crustFile := fun _ => none
        canon := id }
    let p : Proc Float := { json := [("c", conv j)], results := [], log := [] }
    match run 100000 env "c" "" (newRunner p) with
    | none => IO.eprintln "did not end"
    | some (r, p') =>
      match r with
      | .error e => IO.eprintln s!"error {repr e}"
      | .ok _ => IO.eprintln "ok"
      match p'.results with
      | (name, t) :: _ =>
        IO.eprintln name
        IO.println (String.intercalate "," t.header)
        for row in t.rows do IO.println (String.intercalate "," (row.map showCell))
      | [] => IO.eprintln "no result"
