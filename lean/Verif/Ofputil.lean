import Verif.Conn
import Verif.Cookie
import Verif.Ofp.Raw

/-!
# ofputil: bitmaps, matches, instructions, flow requests, echo and hello handlers
-/

namespace Verif

/-! ## bitmap.go -/

/-- `shl`, ofputil/bitmap.go:17-19.  In Go a shift of a `uint32` by 32 or more gives 0; the
shift of Lean's `UInt32` takes the amount modulo 32. -/
def shl (mask bit : UInt32) : UInt32 :=
  mask ||| (if bit.toNat < 32 then 1 <<< bit else 0)

/-- The loop of the bitmap functions. -/
def bitmapOf (l : List UInt32) : UInt32 := l.foldl shl 0

/-- `PacketInReasonBitmap`, ofputil/bitmap.go:23-29 (`PacketInReason` is a `uint8`,
ofp/packet.go:20). -/
def packetInReasonBitmap (reasons : List UInt8) : UInt32 := bitmapOf (reasons.map (·.toUInt32))

/-- `PortReasonBitmap`, ofputil/bitmap.go:33-39 (`PortReason` is a `uint8`). -/
def portReasonBitmap (reasons : List UInt8) : UInt32 := bitmapOf (reasons.map (·.toUInt32))

/-- `FlowReasonBitmap`, ofputil/bitmap.go:43-49 (`FlowRemovedReason` is a `uint8`). -/
def flowReasonBitmap (reasons : List UInt8) : UInt32 := bitmapOf (reasons.map (·.toUInt32))

/-- `GroupBitmap`, ofputil/bitmap.go:53-59 (`GroupType` is a `uint8`). -/
def groupBitmap (groups : List UInt8) : UInt32 := bitmapOf (groups.map (·.toUInt32))

/-- `ActionBitmap`, ofputil/bitmap.go:63-69 (`ActionType` is a `uint16`). -/
def actionBitmap (actions : List UInt16) : UInt32 := bitmapOf (actions.map (·.toUInt32))

/-- `Bitmap64`, ofputil/bitmap.go:8-10. -/
def bitmap64 (q1 q2 : UInt32) : UInt32 × UInt32 := (q1, q2)

/-- `Bitmap128`, ofputil/bitmap.go:13-15. -/
def bitmap128 (q1 q2 q3 q4 : UInt32) : UInt32 × UInt32 × UInt32 × UInt32 := (q1, q2, q3, q4)

/-! ## match.go -/

/-- `bytesOf`, ofputil/match.go:11-21, for a fixed-size integer, which `binary.Write` never
fails to write, so the panic of ofputil/match.go:15-18 is not reached. -/
def bytesOf {α : Type} [Wire α] (v : α) : Bytes := (Enc.writeTo [.bin (be v)]).out

/-- `ExtendedMatch`, ofputil/match.go:23-25 (`MatchTypeXM` = 1, ofp/match.go:430). -/
def extendedMatch (xms : List XM) : Match := ⟨1, xms⟩

/-- `basic`, ofputil/match.go:28-33 (`XMClassOpenflowBasic` = 0x8000, ofp/match.go:214). -/
def basic (t : UInt8) (val mask : Bytes) : XM := ⟨0x8000, t, val, mask⟩

/-- `MatchEthType`, ofputil/match.go:37-39 (`XMTypeEthType` = 5). -/
def matchEthType (eth : UInt16) : XM := basic 5 (bytesOf eth) []

/-- `MatchInPort`, ofputil/match.go:42-44 (`XMTypeInPort` = 0; `PortNo` is a `uint32`). -/
def matchInPort (port : UInt32) : XM := basic 0 (bytesOf port) []

/-- `MatchIPProto`, ofputil/match.go:48-50 (`XMTypeIPProto` = 10). -/
def matchIPProto (ipp : UInt8) : XM := basic 10 (bytesOf ipp) []

/-- `MatchICMPv6Type`, ofputil/match.go:54-56 (`XMTypeICMPv6Type` = 29). -/
def matchICMPv6Type (icmpt : UInt8) : XM := basic 29 (bytesOf icmpt) []

/-- `MatchIPv6ExtHeader`, ofputil/match.go:60-62 (`XMTypeIPv6ExtHeader` = 39). -/
def matchIPv6ExtHeader (header : UInt16) : XM := basic 39 (bytesOf header) []

/-! ## actions.go -/

/-- `ActionsApply`, ofputil/actions.go:9-11. -/
def actionsApply (actions : List Action) : List Instruction := [.applyActions actions]

/-- `ActionsWrite`, ofputil/actions.go:15-17. -/
def actionsWrite (actions : List Action) : List Instruction := [.writeActions actions]

/-- `ActionsClear`, ofputil/actions.go:21-23. -/
def actionsClear : List Instruction := [.clearActions]

/-! ## flow.go -/

/-- A request whose message is `w`, which writes the same on every call. -/
def requestOf (t : UInt8) (w : Wr) : Request := newRequest t (some fun _ => w)

/-- The message of `TableFlush`, ofputil/flow.go:9-16. -/
def tableFlushMod (table : UInt8) : FlowMod :=
  { cookie := 0, cookieMask := 0, table := table, command := 3, idleTimeout := 0,
    hardTimeout := 0, priority := 0, buffer := 0xffffffff, outPort := 0xffffffff,
    outGroup := 0xffffffff, flags := 0, mtch := ⟨1, []⟩, instructions := [] }

/-- `TableFlush`, ofputil/flow.go:8-17 (`TypeFlowMod` = 14, header.go). -/
def tableFlush (table : UInt8) : Request := requestOf 14 (tableFlushMod table).writeTo

/-- The message of `FlowFlush`, ofputil/flow.go:20-27. -/
def flowFlushMod (table : UInt8) (m : Match) : FlowMod :=
  { cookie := 0, cookieMask := 0, table := table, command := 3, idleTimeout := 0,
    hardTimeout := 0, priority := 0, buffer := 0xffffffff, outPort := 0xffffffff,
    outGroup := 0xffffffff, flags := 0, mtch := m, instructions := [] }

/-- `FlowFlush`, ofputil/flow.go:19-28. -/
def flowFlush (table : UInt8) (m : Match) : Request := requestOf 14 (flowFlushMod table m).writeTo

/-- The message of `FlowDrop`, ofputil/flow.go:31-36. -/
def flowDropMod (table : UInt8) : FlowMod :=
  { cookie := 0, cookieMask := 0, table := table, command := 0, idleTimeout := 0,
    hardTimeout := 0, priority := 0, buffer := 0xffffffff, outPort := 0, outGroup := 0, flags := 0,
    mtch := ⟨1, []⟩, instructions := [] }

/-- `FlowDrop`, ofputil/flow.go:30-37. -/
def flowDrop (table : UInt8) : Request := requestOf 14 (flowDropMod table).writeTo

/-! ## handler.go -/

/-- `ioutil.ReadAll(r.Body)`, with the body as it is left. -/
def Body.drain : Body → Bytes × Option Err × Body
  | .nil => ([], some .panic, .nil)
  | .buffer b => (b, none, .buffer [])
  | .copy c => let (o, e, c') := c.readAll; (o, e, .copy c')
  | .reader r => let (o, e, r') := Verif.readAll r; (o, e, .reader r')

/-- A handler that is called with the response writer of a connection and the request: it
leaves the connection and the request in some state.  A handler of the application may
keep and use them in other ways; that is the subject of the concurrent models. -/
abbrev Serve := BW × Request → BW × Request

/-- `(h HandlerFunc) Serve` of `DiscardHandler`, server.go:39. -/
def discardHandler : Serve := id

/-- Calling an optional handler. -/
def serveNext (h : Option Serve) (s : BW × Request) : BW × Request :=
  match h with
  | none => s
  | some h => h s

/-- `EchoHandler`, ofputil/handler.go:16-41, called for the request `q` of a connection: the
response writer remembers the version `q.header.version` (server.go:325).  Logging is
dropped, and so is the error of `rw.Write` (ofputil/handler.go:32). -/
def echoHandler (h : Option Serve) : Serve := fun (c, q) =>
  match q.body.drain with
  | (_, some _, body) => (c, { q with body := body })
  | (data, none, body) =>
    let q' := { q with body := body }
    let header : Header := { q'.header.copy with type := 3 }
    let (_, c', _) := Response.write c q.header.version header (some (EchoReply.writeTo ⟨data⟩))
    serveNext h (c', q')

/-- `HelloHandler`, ofputil/handler.go:49-66. -/
def helloHandler (version : UInt8) (h : Option Serve) : Serve := fun (c, q) =>
  let header : Header := { q.header.copy with version := version }
  let (_, c', _) := Response.write c q.header.version header none
  serveNext h (c', q)

end Verif
