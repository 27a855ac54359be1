import Verif.Props.Utils
import Verif.Props.Lines
import Verif.Props.Can
import Verif.Props.Legacy
import Verif.Props.EcuMap
import Verif.Props.Commands
import Verif.Props.Sensors
import Verif.Model.Obd
import Verif.Props.Dtc
import Verif.Props.Status
import Verif.Props.Monitor
import Verif.Props.Enums
import Verif.Props.Vin
import Verif.Props.Total
import Verif.Props.Serial
import Verif.Props.Connect
import Verif.Props.Query
import Verif.Props.Header
import Verif.Props.Fast
import Verif.Props.Supported
import Verif.Props.Ports
import Verif.Props.Robust
import Verif.Props.Async
import Verif.Props.EndToEnd
import Verif.Props.Docs
import Verif.Props.Lookup
import Verif.Props.Scan
import Verif.Props.TroubleCodes
import Verif.Props.Optimise
import Verif.Props.Readings
import Verif.Props.Start
import Verif.Props.Sessions
import Verif.Props.Traffic
import Verif.Props.Stateless
import Verif.Props.Erase
import Verif.Props.Verdict
import Verif.Props.AdapterInfo
import Verif.Props.Opening
import Verif.Props.Refine
import Verif.Props.Unconnected
import Verif.Props.Repr
import Verif.Props.Printed
import Verif.Props.Chunks
import Verif.Props.Custom
import Verif.Props.Shown
import Verif.Props.Fine
import Verif.Props.States
import Verif.Props.Units
import Verif.Props.Rounds
import Verif.Props.Raw
import Verif.Props.Works
import Verif.Props.Live
import Verif.Props.Volts
import Verif.Props.Rest
import Verif.Props.FloatText
import Verif.Props.Reading
import Verif.Props.Banks
import Verif.Props.Lost
import Verif.Props.Tracking
import Verif.Props.StopRaises
import Verif.Props.Interleaving
import Verif.Props.Freeze
import Verif.Props.OneCall
import Verif.Props.DtcLetters
import Verif.Props.OptimiseHeaders
import Verif.Props.InForce
import Verif.Props.AsyncActual
import Verif.Props.PendingLegacy
import Verif.Props.CanExact
import Verif.Props.Raises
import Verif.Props.Utf8
import Verif.Props.ShowResponse
import Verif.Props.Identity
import Verif.Props.Names
import Verif.Props.Lesser
import Verif.Props.LowPower
import Verif.Audit
