import Verif.Model.Commands
/-!
# Model of the lookup methods of the class `Commands`, obd/commands.py:313-411
-/
namespace Model
open Py

/-- A value in `Commands.__dict__` (obd/commands.py:317-337): the attribute `modes`, or a command. -/
inductive Attr where
  | modes
  | cmd (c : OBDCommand)

/-- `if c is not None: self.__dict__[c.name] = c`, obd/commands.py:333-337. -/
def addEntry (d : Dict String Attr) : Option OBDCommand → Dict String Attr
  | some c => d.set c.name (.cmd c)
  | none => d

/-- `Commands.__dict__` after `__init__`, obd/commands.py:314-337. -/
def commandsDict : Dict String Attr :=
  misc.foldl addEntry (modes.foldl (fun d m => m.foldl addEntry d) [("modes", .modes)])

/-- `commands[name]` with a string, obd/commands.py:354-355. -/
def getName (name : String) : Except Exc Attr :=
  match commandsDict.get? name with
  | some a => .ok a
  | none => .error .keyError

/-- `commands[mode]` with an int, obd/commands.py:352-353: negative indices count from the end. -/
def getInt (i : Int) : Except Exc (List (Option OBDCommand)) :=
  if 0 ≤ i then idx modes i.toNat
  else if -i ≤ modes.length then idx modes (modes.length - (-i).toNat)
  else .error .indexError

/-- `str.isupper()`, obd/commands.py:398: no lower-case letter and at least one upper-case letter.  Simplification: only
ASCII letters are known (the result matters for keys of `__dict__` only, which are ASCII). -/
def isUpper (s : String) : Bool := s.toList.all (fun c => !c.isLower) && s.toList.any Char.isUpper

/-- `Commands.has_name`, obd/commands.py:395-398, and `in`, obd/commands.py:364-366. -/
def hasName (name : String) : Bool := isUpper name && commandsDict.mem name

/-- `Commands.has_command`, obd/commands.py:391-393; a list is not equal to a command. -/
def hasCommand (c : OBDCommand) : Bool :=
  commandsDict.any (fun e => match e.2 with
    | .modes => false
    | .cmd d => d.eq c)

end Model
