import Verif.Props.Constants
import Verif.Props.Tables
import Verif.Props.Methods
import Verif.Props.Frames
import Verif.Props.Time
import Verif.Props.Pool
import Verif.Props.ConnMem
import Verif.Props.Url
import Verif.Props.Send
import Verif.Props.Outgoing
import Verif.Props.Rpc
import Verif.Props.Receive
import Verif.Props.Deadlines
import Verif.Props.Consume
import Verif.Props.Login
import Verif.Props.Heartbeat
import Verif.Props.Tls
import Verif.Props.TlsCreds
import Verif.Props.Tools
import Verif.Props.Os
import Verif.Props.Arrive
import Verif.Props.Ready
import Verif.Props.Session
import Verif.Props.ToolsMain
import Verif.Props.Forward
import Verif.Props.Safety
import Verif.Props.Message
import Verif.Props.Bounded
import Verif.Props.Ends
import Verif.Props.Naps
import Verif.Props.Identity
import Verif.Props.ReadOut
import Verif.Props.Limits
import Verif.Props.Failures
import Verif.Props.Construct
import Verif.Props.Statuses
import Verif.Props.Portable
import Verif.Props.Sockets
import Verif.Props.Threads
import Verif.Props.Polling
import Verif.Props.Pins
import Verif.Props.Running
