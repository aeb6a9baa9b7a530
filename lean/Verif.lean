import Verif.Model.Catchup
import Verif.Model.Client
import Verif.Model.Clients
import Verif.Model.Commands
import Verif.Model.Concurrent
import Verif.Model.Construct
import Verif.Model.Cost
import Verif.Model.Energy
import Verif.Model.EventLoop
import Verif.Model.Events
import Verif.Model.Examples
import Verif.Model.Gateway
import Verif.Model.Guarded
import Verif.Model.Heap
import Verif.Model.HmacAuth
import Verif.Model.Items
import Verif.Model.Listen
import Verif.Model.Locked
import Verif.Model.Logs
import Verif.Model.LoopLogs
import Verif.Model.Loops
import Verif.Model.Loss
import Verif.Model.Messages
import Verif.Model.ModelLogs
import Verif.Model.Names
import Verif.Model.Nested
import Verif.Model.Onward
import Verif.Model.OpenAuth
import Verif.Model.Outcomes
import Verif.Model.OwnClasses
import Verif.Model.Paced
import Verif.Model.PacketCost
import Verif.Model.Protocol
import Verif.Model.Queries
import Verif.Model.Reconnect
import Verif.Model.Renew
import Verif.Model.Retry
import Verif.Model.Scripts
import Verif.Model.Socket
import Verif.Model.Tags
import Verif.Model.Texts
import Verif.Model.Timed
import Verif.Model.WireLogs
import Verif.Proofs.Again
import Verif.Proofs.Agree
import Verif.Proofs.Backtrack
import Verif.Proofs.Bound
import Verif.Proofs.Calendar
import Verif.Proofs.Catchup
import Verif.Proofs.Classify
import Verif.Proofs.Client
import Verif.Proofs.Commands
import Verif.Proofs.Concurrent
import Verif.Proofs.Construct
import Verif.Proofs.Cut
import Verif.Proofs.Dispatch
import Verif.Proofs.Energy
import Verif.Proofs.EventLoop
import Verif.Proofs.Events
import Verif.Proofs.Examples
import Verif.Proofs.Firing
import Verif.Proofs.Gateway
import Verif.Proofs.Guarded
import Verif.Proofs.Handshake
import Verif.Proofs.Heap
import Verif.Proofs.HmacAuth
import Verif.Proofs.House
import Verif.Proofs.Inject
import Verif.Proofs.Int
import Verif.Proofs.Items
import Verif.Proofs.Known
import Verif.Proofs.Linear
import Verif.Proofs.Locked
import Verif.Proofs.Logs
import Verif.Proofs.Loop
import Verif.Proofs.LoopLogs
import Verif.Proofs.Loops
import Verif.Proofs.Loss
import Verif.Proofs.Memory
import Verif.Proofs.ModelLogs
import Verif.Proofs.Nested
import Verif.Proofs.Onward
import Verif.Proofs.OpenAuth
import Verif.Proofs.Origin
import Verif.Proofs.Outcomes
import Verif.Proofs.OwnClasses
import Verif.Proofs.Paced
import Verif.Proofs.Packet
import Verif.Proofs.Parse
import Verif.Proofs.Patient
import Verif.Proofs.Print
import Verif.Proofs.Queries
import Verif.Proofs.Raises
import Verif.Proofs.Reconnect
import Verif.Proofs.Regex
import Verif.Proofs.Renew
import Verif.Proofs.Retry
import Verif.Proofs.Scripts
import Verif.Proofs.Sessions
import Verif.Proofs.Snapshot
import Verif.Proofs.Str
import Verif.Proofs.Texts
import Verif.Proofs.Timed
import Verif.Proofs.Toggle
import Verif.Proofs.Wakeups
import Verif.Proofs.WireLogs
import Verif.Props.Abandon
import Verif.Props.Again
import Verif.Props.Agree
import Verif.Props.Announce
import Verif.Props.Answers
import Verif.Props.Bound
import Verif.Props.Catchup
import Verif.Props.ClassParse
import Verif.Props.Client
import Verif.Props.Clients
import Verif.Props.Commands
import Verif.Props.Concurrent
import Verif.Props.Construct
import Verif.Props.Cost
import Verif.Props.Dispatch
import Verif.Props.Energy
import Verif.Props.EventLoop
import Verif.Props.Events
import Verif.Props.Examples
import Verif.Props.Exceptions
import Verif.Props.Failure
import Verif.Props.Gateway
import Verif.Props.GatewayEvents
import Verif.Props.GatewayExact
import Verif.Props.Guarded
import Verif.Props.Heap
import Verif.Props.HmacAuth
import Verif.Props.House
import Verif.Props.Inject
import Verif.Props.Items
import Verif.Props.Known
import Verif.Props.Listen
import Verif.Props.Listeners
import Verif.Props.Locked
import Verif.Props.Login
import Verif.Props.Logs
import Verif.Props.LoopLogs
import Verif.Props.Loops
import Verif.Props.Loss
import Verif.Props.Memory
import Verif.Props.Messages
import Verif.Props.Mirror
import Verif.Props.ModelLogs
import Verif.Props.Names
import Verif.Props.Nested
import Verif.Props.Onward
import Verif.Props.OpenAuth
import Verif.Props.Origin
import Verif.Props.Outcomes
import Verif.Props.OwnClasses
import Verif.Props.Paced
import Verif.Props.Pacing
import Verif.Props.Programs
import Verif.Props.Protocol
import Verif.Props.Queries
import Verif.Props.React
import Verif.Props.Reconnect
import Verif.Props.Relay
import Verif.Props.Renew
import Verif.Props.Replay
import Verif.Props.Reports
import Verif.Props.Retry
import Verif.Props.Scripts
import Verif.Props.Secrets
import Verif.Props.Segments
import Verif.Props.Sessions
import Verif.Props.Shared
import Verif.Props.Snapshot
import Verif.Props.Socket
import Verif.Props.Tags
import Verif.Props.Texts
import Verif.Props.Timed
import Verif.Props.Toggle
import Verif.Props.Waits
import Verif.Props.Wakeups
import Verif.Props.Whitespace
import Verif.Props.Wire
import Verif.Props.WireLogs
import Verif.Props.Written
import Verif.Py.Backtrack
import Verif.Py.Calendar
import Verif.Py.Err
import Verif.Py.Float
import Verif.Py.Int
import Verif.Py.Regex
import Verif.Py.Str
import Verif.RepoTests
import Verif.Spec.Again
import Verif.Spec.Agree
import Verif.Spec.Calendar
import Verif.Spec.Catchup
import Verif.Spec.Commands
import Verif.Spec.Concurrent
import Verif.Spec.Construct
import Verif.Spec.Energy
import Verif.Spec.EventLoop
import Verif.Spec.Events
import Verif.Spec.Frames
import Verif.Spec.Grammar
import Verif.Spec.Guarded
import Verif.Spec.Handshake
import Verif.Spec.HexText
import Verif.Spec.History
import Verif.Spec.House
import Verif.Spec.Inject
import Verif.Spec.Known
import Verif.Spec.Locked
import Verif.Spec.Logs
import Verif.Spec.LoopLogs
import Verif.Spec.Loops
import Verif.Spec.Loss
import Verif.Spec.Memory
import Verif.Spec.ModelLogs
import Verif.Spec.Nested
import Verif.Spec.Numeral
import Verif.Spec.Onward
import Verif.Spec.OpenRegister
import Verif.Spec.Outcomes
import Verif.Spec.OwnClasses
import Verif.Spec.Programs
import Verif.Spec.Queries
import Verif.Spec.Raises
import Verif.Spec.Reconnect
import Verif.Spec.Relay
import Verif.Spec.Renew
import Verif.Spec.Replies
import Verif.Spec.Retry
import Verif.Spec.Scripts
import Verif.Spec.Shared
import Verif.Spec.Snapshot
import Verif.Spec.Texts
import Verif.Spec.Timed
import Verif.Spec.Toggle
import Verif.Spec.WhereTable
import Verif.Spec.WireLogs
import Verif.Spec.Written
