import Verif.Cookie
import Verif.Ofputil
import Verif.Ofptest
import Verif.Listen

/-!
# The tests of packages openflow and ofputil, replayed on the model

Tests of the transcription, not properties, as in `Verif/Replay.lean`: what each test of the
repository asserts, computed by the model.  Tests that start goroutines (`TestServeMaxConns`,
`TestServerServe`, `TestResponseWrite`, the accepting part of `TestDial`) are not here: the model
of those is a relation.
-/

namespace Verif.ReplayCore

/-- `newHeader`, header_test.go:10-20 -/
def newHeader (t : UInt8) : Bytes := (Header.writeTo ⟨4, t, 8, 0⟩).out

/-- `TestCopyReaderWriteTo`, request_test.go:8-17 -/
example : ((CopyReader.writeTo ⟨none, 0, [], none, false⟩).1.n, (CopyReader.writeTo ⟨none, 0, [], none, false⟩).1.err) =
    (0, none) := by decide +kernel

/-- `TestCopyReaderRead`, request_test.go:19-32 -/
example : ((CopyReader.read 4 ⟨some fun _ => ⟨[1, 2, 3, 4], 4, none⟩, 0, [], none, false⟩).1,
    (CopyReader.read 4 ⟨some fun _ => ⟨[1, 2, 3, 4], 4, none⟩, 0, [], none, false⟩).2.1) = ([1, 2, 3, 4], none) := by decide +kernel

/-- `TestReadRequest`, request_test.go:34-57 -/
example : let o := Request.readFrom .zero (bufferRd (Header.writeTo ⟨4, 0, 8, 0⟩).out)
    (o.err, o.val.contentLength, o.val.header.type, o.val.header.version) = (none, 0, 0, 4) := by decide +kernel

/-- `TestTransactionMatcher`, header_test.go:22-37, for three values of `rand.Uint32` -/
example : ([1, 42, 0xffffffff] : List UInt32).all (fun rnd =>
    let (h, m) := transactionMatcher rnd .zero
    let r := newRequest 10 none
    (m { r with header := { r.header with transaction := h.transaction } }).1 &&
      !(m { r with header := { r.header with transaction := h.transaction + 1 } }).1) = true := by decide +kernel

/-- `TestMultiMatcher`, mux_test.go:12-43 -/
example :
    let m := multiMatch [fun r => (r.header.type == 0, r), fun r => (r.header.transaction == 42, r)]
    let q := newRequest 0 none
    ((m (newRequest 10 none)).1, (m { q with header := { q.header with transaction := 43 } }).1,
      (m { q with header := { q.header with transaction := 42 } }).1) = (false, false, true) := by decide +kernel

/-- `TestTypeMux`, mux_test.go:45-84: the request is received, the handler for hellos is found, in
both orders of the map, and what it writes goes to the connection -/
example :
    let hs := MuxMap.handleType (MuxMap.handleType [] 0 (some (.user 1)) false 0).2 2 (some (.user 2)) false 1 |>.2
    (match Conn.receive (.buf [] none (bufferRd (newHeader 0))) with
    | (some q, none, r') =>
      let (e, c, _) := Response.write (.new []) q.header.version q.header.copy (some ⟨[0, 0, 0, 0], 4, none⟩)
      (MuxMap.handler (fun _ r => (false, r)) .discard hs hs q).1 == .user 1 &&
        (MuxMap.handler (fun _ r => (false, r)) .discard hs hs.reverse q).1 == .user 1 &&
        e == none && c.tr.out == [4, 0, 0, 0x0c, 0, 0, 0, 0, 0, 0, 0, 0] && (Conn.receive r').2.1 == some .eof
    | _ => false) = true := by decide +kernel

/-- `fakeCookieJar`, cookie_test.go:11-30 -/
def fakeJar : Jar UInt64 := ⟨0, Enc.readFrom [Enc.num (fun v _ => v)], id, fun c _ => c⟩

/-- `TestCookieReaderOf`, cookie_test.go:32-48 -/
example : fakeJar.readCookie (be (42 : UInt64)) = (42, none) := by decide +kernel

/-- `TestNewCookieMatcher`, cookie_test.go:50-70, for two values of `rand.Uint32` -/
example : let p := newCookieMatcher 0x12345678 0x9abcdef0 fakeJar 0
    let rq := fun c : UInt64 => newRequest 0 (some fun _ => Enc.writeTo [.bin (be c)])
    (p.2.cookies == p.1, (p.2.run (rq p.1)).1, (p.2.run (rq (p.1 + 1))).1) = (true, some true, some false) := by
  decide +kernel

/-- `TestReceiver`, server_test.go:10-36: a hello, then `io.EOF` -/
example : (match Conn.receive (.buf [] none (bufferRd (newHeader 0))) with
    | (some q, none, r') => q.header.type == 0 && (Conn.receive r').2.1 == some .eof
    | _ => false) = true := by decide +kernel

/-- `TestDial`, net_test.go:164-239: what `Send` puts in the buffer and what `Receive` returns for the
message that `WriteTo` has written -/
example : (match Conn.receive (.buf [] none (bufferRd ((newRequest 0 none).writeTo recorder []).dst.flatten)) with
    | (some q, none, _) => q.header.type == 0 && q.header.length == 8 && q.contentLength == 0 &&
        (Conn.send (.new []) (newRequest 0 none)).1 == none
    | _ => false) = true := by decide +kernel

/-! ## ofputil -/

/-- `TestBitmap64`, `TestBitmap128`, ofputil/bitmap_test.go:9-21 -/
example : bitmap64 3 4 = (3, 4) ∧ bitmap128 3 4 5 6 = (3, 4, 5, 6) := by decide +kernel

/-- `TestPacketInReasonBitmap`, ofputil/bitmap_test.go:23-32 -/
example : packetInReasonBitmap [1, 2] = 0x6 := by decide +kernel

/-- `TestPortReasonBitmap`, ofputil/bitmap_test.go:34-41 -/
example : portReasonBitmap [0, 1] = 0x3 := by decide +kernel

/-- `TestFlowReasonBitmap`, ofputil/bitmap_test.go:43-52 -/
example : flowReasonBitmap [2, 3] = 0xc := by decide +kernel

/-- `TestGroupBitmap`, ofputil/bitmap_test.go:54-63 -/
example : groupBitmap [1, 2] = 0x6 := by decide +kernel

/-- `TestActionBitmap`, ofputil/bitmap_test.go:65-75 -/
example : actionBitmap [0, 17, 18] = 0x60001 := by decide +kernel

/-- `TestActionsApply`, `TestActionsWrite`, `TestActionsClear`, ofputil/actions_test.go:10-61 -/
example : actionsApply [.copyTTLIn, .decNwTTL, .output 2 0] = [.applyActions [.copyTTLIn, .decNwTTL, .output 2 0]] ∧
    actionsWrite [.setNwTTL 128, .group 3] = [.writeActions [.setNwTTL 128, .group 3]] ∧
    actionsClear = [.clearActions] := by decide +kernel

/-- `TestEchoHandler`, ofputil/handler_test.go:11-38 (it is about hellos); what the recorder keeps are
the arguments of `Write`, here the bytes on the connection are looked at -/
example :
    let q := newRequest 0 none
    let q := { q with header := { q.header with version := 3, transaction := 42 } }
    (helloHandler 4 none (.new [], q)).1.tr.out = [4, 0, 0, 8, 0, 0, 0, 42] := by decide +kernel

/-- `TestHelloHandler`, ofputil/handler_test.go:40-60 (it is about echo requests) -/
example :
    let q := newRequest 3 (some fun _ => EchoRequest.writeTo ⟨[1, 2, 3, 4]⟩)
    let q := { q with header := { q.header with transaction := 43 } }
    (echoHandler none (.new [], q)).1.tr.out = [4, 3, 0, 12, 0, 0, 0, 43, 1, 2, 3, 4] := by decide +kernel

end Verif.ReplayCore
