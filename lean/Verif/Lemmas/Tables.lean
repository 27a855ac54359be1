import Verif.Model.Commands
/-! Whole-table evaluations by the kernel (slow, hence in a module of their own). -/
namespace Model
open Py

theorem commands_nodup :
    (allCommands.map (fun c => intOfHex (bytesToHex (1 :: c.command ++ c.header)))).Nodup := by decide +kernel

theorem names_nodup : (allCommands.map OBDCommand.name).Nodup := by decide +kernel

end Model
