import Verif.Ofp.Flow
import Verif.Ofp.Packet
import Verif.Ofp.Group
import Verif.Ofp.Meter
import Verif.Ofp.Queue
import Verif.Ofp.Hello
import Verif.Ofp.Table

/-!
# Messages with parts of the user's own types

`Action`, `Instruction`, `MeterBand`, `QueueProp`, `TableProp` and `HelloElem` are interfaces
(ofp/action.go:162-167, instruction.go:96-101, meter.go:93-98, queue.go:45-50, table.go:302-307,
handshake.go:21-26), so a message can hold values of types that are not in the package.  In
Verif/Ofp the parts are those of the package, and none of them fails to be encoded.  Here a part is
what its `WriteTo` does to a buffer, whatever that is.  A panic of a part, or a nil part, is the
error `panic`: it passes the same returns, none of which recovers.
-/

namespace Verif

/-- `(a *Actions) bytes`, ofp/action.go:172-183. -/
def Actions.bufOf (ws : List Wr) : Bytes × Option Err :=
  let w := Enc.writeSliceTo ws
  match w.err with
  | some e => ([], some e)
  | none => (w.out, none)

/-- `(a *Actions) WriteTo`, ofp/action.go:186-193. -/
def Actions.writeToOf (ws : List Wr) : Wr :=
  match Actions.bufOf ws with
  | (b, some e) => ⟨[], b.length, some e⟩
  | (b, none) => Enc.writeTo [.bin b]

/-- `writeInstructionActions`, ofp/instruction.go:205-220. -/
def writeInstructionActionsOf (t : UInt16) (ws : List Wr) : Wr :=
  match Actions.bufOf ws with
  | (b, some e) => ⟨[], b.length, some e⟩
  | (b, none) =>
    Enc.writeTo [instructionHeader t (UInt16.ofNat b.length + 8), .bin (zeros 4), .bin b]

/-- `(i *Instructions) WriteTo`, ofp/instruction.go:108-119. -/
def Instructions.writeToOf (ws : List Wr) : Wr :=
  let w := Enc.writeSliceTo ws
  match w.err with
  | some e => ⟨[], 0, some e⟩
  | none => Enc.writeTo [.bin w.out]

/-- `(f *FlowMod) WriteTo`, ofp/flow.go:225-231; the instructions are the argument. -/
def FlowMod.writeToOf (f : FlowMod) (ws : List Wr) : Wr :=
  Enc.writeTo [.bin (be f.cookie), .bin (be f.cookieMask), .bin (be f.table), .bin (be f.command),
    .bin (be f.idleTimeout), .bin (be f.hardTimeout), .bin (be f.priority), .bin (be f.buffer),
    .bin (be f.outPort), .bin (be f.outGroup), .bin (be f.flags), .bin (zeros 2),
    .writer f.mtch.writeTo, .writer (Instructions.writeToOf ws)]

/-- `(f *FlowStats) WriteTo`, ofp/flow.go:462-476; the instructions are the argument. -/
def FlowStats.writeToOf (f : FlowStats) (ws : List Wr) : Wr :=
  let buf := Enc.writeTo [.bin (be f.table), .bin (zeros 1), .bin (be f.durationSec),
    .bin (be f.durationNSec), .bin (be f.priority), .bin (be f.idleTimeout),
    .bin (be f.hardTimeout), .bin (be f.flags), .bin (zeros 4), .bin (be f.cookie),
    .bin (be f.packetCount), .bin (be f.byteCount), .writer f.mtch.writeTo,
    .writer (Instructions.writeToOf ws)]
  match buf.err with
  | some e => ⟨[], 0, some e⟩
  | none => Enc.writeTo [.bin (be (UInt16.ofNat (buf.out.length + 2))), .bin buf.out]

/-- `(b *Bucket) WriteTo`, ofp/group.go:148-160; the actions are the argument. -/
def Bucket.writeToOf (b : Bucket) (ws : List Wr) : Wr :=
  match Actions.bufOf ws with
  | (_, some e) => ⟨[], 0, some e⟩
  | (buf, none) =>
    Enc.writeTo [.bin (be (UInt16.ofNat (16 + buf.length))), .bin (be b.weight),
      .bin (be b.watchPort), .bin (be b.watchGroup), .bin (zeros 4), .bin buf]

/-- `(g *GroupMod) WriteTo`, ofp/group.go:96-104; the buckets are the argument. -/
def GroupMod.writeToOf (g : GroupMod) (ws : List Wr) : Wr :=
  let w := Enc.writeTo [.bin (be g.command), .bin (be g.type), .bin (zeros 1), .bin (be g.group)]
  match w.err with
  | some _ => w
  | none =>
    let w2 := Enc.writeSliceTo ws
    ⟨w.out ++ w2.out, w.n + w2.n, w2.err⟩

/-- `(g *GroupDescStats) WriteTo`, ofp/group.go:320-333; the buckets are the argument. -/
def GroupDescStats.writeToOf (g : GroupDescStats) (ws : List Wr) : Wr :=
  let buf := Enc.writeSliceTo ws
  match buf.err with
  | some e => ⟨[], 0, some e⟩
  | none => Enc.writeTo [.bin (be (UInt16.ofNat (8 + buf.out.length))), .bin (be g.type),
      .bin (zeros 1), .bin (be g.group), .bin buf.out]

/-- `(p *PacketOut) WriteTo`, ofp/packet.go:155-167; the actions are the argument. -/
def PacketOut.writeToOf (p : PacketOut) (ws : List Wr) : Wr :=
  let buf := Actions.writeToOf ws
  match buf.err with
  | some e => ⟨[], 0, some e⟩
  | none =>
    Enc.writeTo [.bin (be p.buffer), .bin (be p.inPort), .bin (be (UInt16.ofNat buf.out.length)),
      .bin (zeros 6), .bin buf.out, .bin p.data]

/-- `(m MeterBands) WriteTo`, ofp/meter.go:105-118: the bands go to the writer one by one. -/
def MeterBands.writeToOf (ws : List Wr) : Wr := Enc.writeSliceTo ws

/-- `(m *MeterMod) WriteTo`, ofp/meter.go:277-279; the bands are the argument. -/
def MeterMod.writeToOf (m : MeterMod) (ws : List Wr) : Wr :=
  Enc.writeTo [.bin (be m.command), .bin (be m.flags), .bin (be m.meter),
    .writer (MeterBands.writeToOf ws)]

/-- `(m *MeterConfig) WriteTo`, ofp/meter.go:325-336; the bands are the argument. -/
def MeterConfig.writeToOf (m : MeterConfig) (ws : List Wr) : Wr :=
  let buf := MeterBands.writeToOf ws
  match buf.err with
  | some e => ⟨[], 0, some e⟩
  | none => Enc.writeTo [.bin (be (UInt16.ofNat (8 + buf.out.length))), .bin (be m.flags),
      .bin (be m.meter), .bin buf.out]

/-- `(h HelloElems) WriteTo`, ofp/handshake.go:48-58. -/
def HelloElems.writeToOf (ws : List Wr) : Wr :=
  let buf := Enc.writeSliceTo ws
  match buf.err with
  | some e => ⟨[], 0, some e⟩
  | none => Enc.writeTo [.bin buf.out]

/-- `(h *Hello) WriteTo`, ofp/handshake.go:101-103; the elements are the argument. -/
def Hello.writeToOf (ws : List Wr) : Wr := Enc.writeTo [.writer (HelloElems.writeToOf ws)]

/-- `(q QueueProps) WriteTo`, ofp/queue.go:57-68. -/
def QueueProps.writeToOf (ws : List Wr) : Wr :=
  let buf := Enc.writeSliceTo ws
  match buf.err with
  | some e => ⟨[], 0, some e⟩
  | none => Enc.writeTo [.bin buf.out]

/-- `(q *PacketQueue) WriteTo`, ofp/queue.go:113-122; the properties are the argument. -/
def PacketQueue.writeToOf (q : PacketQueue) (ws : List Wr) : Wr :=
  let buf := QueueProps.writeToOf ws
  match buf.err with
  | some e => ⟨[], 0, some e⟩
  | none => Enc.writeTo [.bin (be q.queue), .bin (be q.port),
      .bin (be (UInt16.ofNat (buf.out.length + 16))), .bin (zeros 6), .bin buf.out]

/-- `(q *QueueGetConfigReply) WriteTo`, ofp/queue.go:353-363; the queues are the argument. -/
def QueueGetConfigReply.writeToOf (q : QueueGetConfigReply) (ws : List Wr) : Wr :=
  let buf := Enc.writeSliceTo ws
  match buf.err with
  | some e => ⟨[], 0, some e⟩
  | none => Enc.writeTo [.bin (be q.port), .bin (zeros 4), .bin buf.out]

/-- `(t *TableFeatures) WriteTo`, ofp/table.go:136-155; the properties are the argument. -/
def TableFeatures.writeToOf (t : TableFeatures) (ws : List Wr) : Wr :=
  let buf := Enc.writeSliceTo ws
  match buf.err with
  | some e => ⟨[], 0, some e⟩
  | none => Enc.writeTo [.bin (be (UInt16.ofNat (64 + buf.out.length))), .bin (be t.table),
      .bin (zeros 5), .bin (copyTo t.name 32), .bin (be t.metadataMatch), .bin (be t.metadataWrite),
      .bin (be t.config), .bin (be t.maxEntries), .bin buf.out]

end Verif
