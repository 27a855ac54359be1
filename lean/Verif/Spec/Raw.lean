import Verif.Spec.IsoTp
/-!
# Specification: the raw text of a message
-/
namespace Spec
open Py Model

/-- What the adapter printed for one message: all lines of one transmitter, or one line of adapter
text, or, before a protocol is known, all hex lines. -/
def RawOf (p : Proto) (lines : List Str) (m : Message) : Prop :=
  match m.txId with
  | some t => m.raw = ['\n'].intercalate ((lines.filter (sentBy p t)).map (fun s => s.filter (fun c => c != ' ')))
  | none => (m.raw ∈ lines ∧ NotHex m.raw) ∨ (p = .unknown ∧
      m.raw = ['\n'].intercalate ((lines.filter (fun s => ¬ NotHex s)).map (fun s => s.filter (fun c => c != ' '))))

end Spec
