import Verif.Model.CommandTable
/-!
# Model of the assembly of the tables and the class `Commands`, obd/commands.py:156-164, 313-414
-/
namespace Model
open Py

/-- `c.decode == pid`, obd/commands.py:163 and :388. -/
def Decoder.isPid : Decoder → Bool
  | .pid => true
  | _ => false

/-- The loop body producing `__mode2__`, obd/commands.py:157-164. -/
def toMode2 (c : OBDCommand) : OBDCommand :=
  let c := c.clone
  { c with command := ascii "02" ++ c.command.drop 2
           name := "DTC_" ++ c.name
           desc := "DTC " ++ c.desc
           decode := if c.decode.isPid then .drop else c.decode }

/-- `__mode2__`, obd/commands.py:156-164. -/
def mode2 : List (Option OBDCommand) := mode1.map (Option.map toMode2)

/-- `Commands.modes`, obd/commands.py:317-328. -/
def modes : List (List (Option OBDCommand)) :=
  [[], mode1, mode2, mode3, mode4, [], mode6, mode7, [], mode9]

/-- The commands stored in `Commands.__dict__` by name, in the order of the two loops,
obd/commands.py:331-337. -/
def allCommands : List OBDCommand := (modes.flatten ++ misc).filterMap id

/-- `commands["NAME"]` / `commands.NAME`, obd/commands.py:354-355: later definitions of a
name would win. -/
def byName (name : String) : Option OBDCommand := allCommands.reverse.find? (fun c => c.name == name)

/-- `commands[mode]`, obd/commands.py:352-353 (non-negative keys). -/
def getMode (mode : Nat) : Except Exc (List (Option OBDCommand)) := idx modes mode

/-- `len(commands)`, obd/commands.py:360-362: reserved `None` slots are counted too. -/
def commandsLen : Nat := (modes.map List.length).sum

/-- `Commands.has_pid`, obd/commands.py:400-411. -/
def hasPid (mode pid : Int) : Bool :=
  if mode < 0 ∨ pid < 0 then false
  else match modes[mode.toNat]? with
    | none => false
    | some m => match m[pid.toNat]? with
      | some (some _) => true
      | _ => false

/-- `Commands.pid_getters`, obd/commands.py:384-389. -/
def pidGetters : List OBDCommand :=
  modes.flatten.filterMap (fun c => c.filter (fun c => c.decode.isPid))

/-- `Commands.base_commands`, obd/commands.py:368-382. -/
def baseCommands : List OBDCommand :=
  ["PIDS_A", "PIDS_9A", "MIDS_A", "GET_DTC", "CLEAR_DTC", "GET_CURRENT_DTC", "ELM_VERSION",
   "ELM_VOLTAGE"].filterMap byName

end Model
