import Verif.Go.Bytes
import Verif.Go.Reader
import Verif.Go.Broken
import Verif.Encoding
import Verif.Spec.Wire
import Verif.EncodingSafe
import Verif.Ofp.Match
import Verif.Ofp.Action
import Verif.Ofp.Instruction
import Verif.Hoare
import Verif.Props.Match
import Verif.Props.Action
import Verif.Ofp.Fixed
import Verif.Props.Fixed
import Verif.Ofp.Flow
import Verif.Props.Flow
import Verif.Ofp.Packet
import Verif.Props.Packet
import Verif.Ofp.Raw
import Verif.Props.Raw
import Verif.Ofp.Port
import Verif.Props.Port
import Verif.Ofp.Group
import Verif.Props.Group
import Verif.Ofp.Meter
import Verif.Props.Meter
import Verif.Ofp.Queue
import Verif.Props.Queue
import Verif.Ofp.Hello
import Verif.Props.Hello
import Verif.Scan
import Verif.Ofp.Table
import Verif.Props.Table
import Verif.Props.Untrusted
import Verif.Fails
import Verif.Header
import Verif.Request
import Verif.Props.Request
import Verif.Conn
import Verif.Props.Conn
import Verif.Mutex
import Verif.MutexLive
import Verif.ConnConc
import Verif.Props.ConnConc
import Verif.CloseConc
import Verif.Props.CloseConc
import Verif.Served
import Verif.Props.Served
import Verif.Props.Controller
import Verif.Props.ControllerAny
import Verif.Props.Duo
import Verif.RecvConc
import Verif.Props.RecvConc
import Verif.Mux
import Verif.Props.Mux
import Verif.MuxConc
import Verif.Props.MuxConc
import Verif.MuxRuns
import Verif.Props.MuxRuns
import Verif.Props.MuxNested
import Verif.Cookie
import Verif.Props.Cookie
import Verif.Props.CookieMux
import Verif.Runner
import Verif.Props.Runner
import Verif.Pools
import Verif.Props.Pools
import Verif.Txn
import Verif.Props.Txn
import Verif.Props.Leak
import Verif.Server
import Verif.Props.Server
import Verif.Ofputil
import Verif.Ofptest
import Verif.Props.Version
import Verif.Props.Ofputil
import Verif.Props.Ofptest
import Verif.Cuts
import Verif.CutsFlow
import Verif.CutsMore
import Verif.Props.Truncated
import Verif.Same
import Verif.Props.Count
import Verif.Props.Overwrite
import Verif.Props.Undersized
import Verif.Props.EndToEnd
import Verif.Props.Faults
import Verif.Props.FaultsMore
import Verif.Timeout
import Verif.Props.Timeout
import Verif.Relay
import Verif.Props.Relay
import Verif.Loose
import Verif.Props.Reserved
import Verif.Props.ReservedTable
import Verif.Text
import Verif.Props.Text
import Verif.Stable
import Verif.EofOnly
import Verif.Props.Fragments
import Verif.CutsStats
import Verif.CutsTable
import Verif.Props.TruncatedStats
import Verif.Replay
import Verif.Panics
import Verif.Props.Panics
import Verif.Spec.Held
import Verif.Pays
import Verif.Props.Bounded
import Verif.Props.BoundedMore
import Verif.Props.Distinct
import Verif.Serve
import Verif.Props.Serve
import Verif.Props.Proxy
import Verif.Consts
import Verif.Spec.Numbers
import Verif.Props.Consts
import Verif.Dest
import Verif.Props.Dest
import Verif.Heap
import Verif.Props.Owned
import Verif.Runners
import Verif.Props.Runners
import Verif.Empty
import Verif.Props.Empty
import Verif.Shared
import Verif.Props.Shared
import Verif.Props.SharedReply
import Verif.CloseClients
import Verif.Props.CloseClients
import Verif.PanicIff
import Verif.Props.PanicIff
import Verif.Spec.Structs
import Verif.Conforms
import Verif.Props.Conforms
import Verif.Understood
import Verif.Props.Understood
import Verif.UnderstoodTable
import Verif.Props.UnderstoodTable
import Verif.Props.UnderstoodStream
import Verif.Props.Oversized
import Verif.Props.Records
import Verif.Props.Fetch
import Verif.Pads
import Verif.Props.Pads
import Verif.Adaptive
import Verif.Props.Adaptive
import Verif.Props.AdaptiveEnds
import Verif.PadsAll
import Verif.Props.PadsAll
import Verif.PadsMatch
import Verif.Props.PadsMatch
import Verif.Listen
import Verif.Props.Listen
import Verif.TimedServe
import Verif.Props.TimedServe
import Verif.Facade
import Verif.Props.Facade
import Verif.TimedClose
import Verif.Props.TimedClose
import Verif.TimedReply
import Verif.Props.TimedReply
import Verif.TimedAccept
import Verif.Props.TimedAccept
import Verif.Props.Isolation
import Verif.Props.Backlog
import Verif.Duplex
import Verif.Props.Duplex
import Verif.Props.DuplexBytes
import Verif.Await
import Verif.Props.Await
import Verif.OwnParts
import Verif.Props.OwnParts
import Verif.ReplayCore
import Verif.EncodingTest
import Verif.Props.EncodingTest
import Verif.Shown
import Verif.Props.Shown
import Verif.Reused
import Verif.Props.Reused
import Verif.Switch
import Verif.Props.Switch
import Verif.Async
import Verif.Props.Async
import Verif.Oxm
import Verif.Props.Oxm
import Verif.Pipe
import Verif.Props.Pipe
import Verif.Axioms
