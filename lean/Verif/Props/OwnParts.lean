import Verif.OwnParts
import Verif.Props.Conn

/-!
# C110: messages with parts of the user's own types

Either every part is encoded, and then the message holds the bytes of each part, in order, under a
length that counts them, or the first error is returned and the writer has got nothing.
-/

namespace Verif.Props

open Verif

/-- The first part that cannot be encoded fails with `e`. -/
def FirstFailure (ws : List Wr) (e : Err) : Prop :=
  ∃ (a : List Wr) (w : Wr) (b : List Wr), ws = a ++ w :: b ∧ (∀ x ∈ a, x.err = none) ∧ w.err = some e

/-- `msg`, given what the parts write, writes all of them within `frame`, or nothing. -/
structure Framed (msg : List Wr → Wr) (frame : Bytes → Bytes) : Prop where
  ok : ∀ ws : List Wr, (∀ w ∈ ws, w.err = none) →
    msg ws = ⟨frame (ws.flatMap (·.out)), (frame (ws.flatMap (·.out))).length, none⟩
  fail : ∀ (ws : List Wr) (e : Err), FirstFailure ws e → msg ws = ⟨[], 0, some e⟩

/-- Either all parts are encoded or there is a first one that fails. -/
theorem parts_cases (ws : List Wr) : (∀ w ∈ ws, w.err = none) ∨ ∃ e, FirstFailure ws e := by
  induction ws with
  | nil => exact .inl (by simp)
  | cons w t ih =>
    cases he : w.err with
    | some e => exact .inr ⟨e, [], w, t, rfl, by simp, he⟩
    | none =>
      rcases ih with ih | ⟨e, a, x, b, rfl, ha, hx⟩
      · exact .inl (by
          intro x hx
          rcases List.mem_cons.1 hx with rfl | hx
          · exact he
          · exact ih x hx)
      · exact .inr ⟨e, w :: a, x, b, rfl, by
          intro y hy
          rcases List.mem_cons.1 hy with rfl | hy
          · exact he
          · exact ha y hy, hx⟩

private theorem slice_ok (ws : List Wr) (h : ∀ w ∈ ws, w.err = none) :
    Enc.writeSliceTo ws = ⟨ws.flatMap (·.out), (ws.map (·.n)).sum, none⟩ := by
  induction ws with
  | nil => rfl
  | cons w t ih =>
    simp [Enc.writeSliceTo, h w (by simp), ih (fun x hx => h x (by simp [hx]))]

private theorem slice_fail (a : List Wr) (w : Wr) (b : List Wr) (e : Err) (h : ∀ x ∈ a, x.err = none)
    (hw : w.err = some e) :
    Enc.writeSliceTo (a ++ w :: b) = ⟨a.flatMap (·.out) ++ w.out, (a.map (·.n)).sum + w.n, some e⟩ := by
  induction a with
  | nil => simp [Enc.writeSliceTo, hw]
  | cons x t ih =>
    simp [Enc.writeSliceTo, h x (by simp), ih (fun y hy => h y (by simp [hy])), Nat.add_assoc]

private theorem slice_err {ws : List Wr} {e : Err} (h : FirstFailure ws e) :
    (Enc.writeSliceTo ws).err = some e := by
  obtain ⟨a, w, b, rfl, ha, hw⟩ := h
  rw [slice_fail a w b e ha hw]

private theorem bufOf_ok (ws : List Wr) (h : ∀ w ∈ ws, w.err = none) :
    Actions.bufOf ws = (ws.flatMap (·.out), none) := by
  simp [Actions.bufOf, slice_ok ws h]

private theorem bufOf_fail {ws : List Wr} {e : Err} (h : FirstFailure ws e) : Actions.bufOf ws = ([], some e) := by
  simp [Actions.bufOf, slice_err h]

/-- The definitions of Verif/OwnParts.lean on the parts of the package are those of Verif/Ofp. -/
theorem own_parts_library :
    (∀ as, Actions.writeTo as = Actions.writeToOf (as.map Action.writeTo)) ∧
    (∀ as, (Instruction.writeActions as).writeTo = writeInstructionActionsOf 3 (as.map Action.writeTo)) ∧
    (∀ as, (Instruction.applyActions as).writeTo = writeInstructionActionsOf 4 (as.map Action.writeTo)) ∧
    (∀ is, Instructions.writeTo is = Instructions.writeToOf (is.map Instruction.writeTo)) ∧
    (∀ f : FlowMod, f.writeTo = f.writeToOf (f.instructions.map Instruction.writeTo)) ∧
    (∀ f : FlowStats, f.writeTo = f.writeToOf (f.instructions.map Instruction.writeTo)) ∧
    (∀ b : Bucket, b.writeTo = b.writeToOf (b.actions.map Action.writeTo)) ∧
    (∀ g : GroupMod, g.writeTo = g.writeToOf (g.buckets.map Bucket.writeTo)) ∧
    (∀ g : GroupDescStats, g.writeTo = g.writeToOf (g.buckets.map Bucket.writeTo)) ∧
    (∀ p : PacketOut, p.writeTo = p.writeToOf (p.actions.map Action.writeTo)) ∧
    (∀ m : MeterMod, m.writeTo = m.writeToOf (m.bands.map MeterBand.writeTo)) ∧
    (∀ m : MeterConfig, m.writeTo = m.writeToOf (m.bands.map MeterBand.writeTo)) ∧
    (∀ h : Hello, h.writeTo = Hello.writeToOf (h.elements.map HelloElem.writeTo)) ∧
    (∀ q : PacketQueue, q.writeTo = q.writeToOf (q.properties.map QueueProp.writeTo)) ∧
    (∀ q : QueueGetConfigReply, q.writeTo = q.writeToOf (q.queues.map PacketQueue.writeTo)) ∧
    (∀ t : TableFeatures, t.writeTo = t.writeToOf (t.properties.map TableProp.writeTo)) := by
  refine ⟨fun _ => rfl, fun _ => rfl, fun _ => rfl, fun _ => rfl, fun _ => rfl, fun _ => rfl, fun _ => rfl,
    fun _ => rfl, fun _ => rfl, fun _ => rfl, fun _ => rfl, fun _ => rfl, fun _ => rfl, fun _ => rfl,
    fun _ => rfl, fun _ => rfl⟩

/-- C110, actions: a list of them, an instruction that holds them (`t` is its type), a bucket, a
packet-out message. -/
theorem own_actions (t : UInt16) (b : Bucket) (p : PacketOut) :
    Framed Actions.writeToOf id ∧
    Framed (writeInstructionActionsOf t) (fun x => be t ++ be (UInt16.ofNat x.length + 8) ++ zeros 4 ++ x) ∧
    Framed b.writeToOf (fun x => be (UInt16.ofNat (16 + x.length)) ++ be b.weight ++ be b.watchPort ++
      be b.watchGroup ++ zeros 4 ++ x) ∧
    Framed p.writeToOf (fun x => be p.buffer ++ be p.inPort ++ be (UInt16.ofNat x.length) ++ zeros 6 ++ x ++
      p.data) := by
  have hb : ∀ ws, (∀ w ∈ ws, w.err = none) → Actions.writeToOf ws =
      ⟨ws.flatMap (·.out), (ws.flatMap (·.out)).length, none⟩ := by
    intro ws h
    simp [Actions.writeToOf, bufOf_ok ws h, Enc.writeTo, Enc.gather]
  have hf : ∀ ws e, FirstFailure ws e → Actions.writeToOf ws = ⟨[], 0, some e⟩ := by
    intro ws e h
    simp [Actions.writeToOf, bufOf_fail h]
  refine ⟨⟨hb, hf⟩, ⟨fun ws h => ?_, fun ws e h => ?_⟩, ⟨fun ws h => ?_, fun ws e h => ?_⟩,
    ⟨fun ws h => ?_, fun ws e h => ?_⟩⟩
  · simp only [writeInstructionActionsOf, bufOf_ok ws h]
    simp [Enc.writeTo, Enc.gather, instructionHeader]
  · simp [writeInstructionActionsOf, bufOf_fail h]
  · simp only [Bucket.writeToOf, bufOf_ok ws h]
    simp [Enc.writeTo, Enc.gather]
  · simp [Bucket.writeToOf, bufOf_fail h]
  · simp only [PacketOut.writeToOf, hb ws h]
    simp [Enc.writeTo, Enc.gather]
  · simp [PacketOut.writeToOf, hf ws e h]

/-- C110, instructions: a list of them, a flow modification, an entry of a flow statistics reply. -/
theorem own_instructions (f : FlowMod) (s : FlowStats) :
    Framed Instructions.writeToOf id ∧
    Framed f.writeToOf (fun x => be f.cookie ++ be f.cookieMask ++ be f.table ++ be f.command ++
      be f.idleTimeout ++ be f.hardTimeout ++ be f.priority ++ be f.buffer ++ be f.outPort ++ be f.outGroup ++
      be f.flags ++ zeros 2 ++ f.mtch.writeTo.out ++ x) ∧
    Framed s.writeToOf (fun x => be (UInt16.ofNat (48 + s.mtch.writeTo.out.length + x.length)) ++ be s.table ++
      zeros 1 ++ be s.durationSec ++ be s.durationNSec ++ be s.priority ++ be s.idleTimeout ++
      be s.hardTimeout ++ be s.flags ++ zeros 4 ++ be s.cookie ++ be s.packetCount ++ be s.byteCount ++
      s.mtch.writeTo.out ++ x) := by
  have hb : ∀ ws, (∀ w ∈ ws, w.err = none) → Instructions.writeToOf ws =
      ⟨ws.flatMap (·.out), (ws.flatMap (·.out)).length, none⟩ := by
    intro ws h
    simp [Instructions.writeToOf, slice_ok ws h, Enc.writeTo, Enc.gather]
  have hf : ∀ ws e, FirstFailure ws e → Instructions.writeToOf ws = ⟨[], 0, some e⟩ := by
    intro ws e h
    simp [Instructions.writeToOf, slice_err h]
  refine ⟨⟨hb, hf⟩, ⟨fun ws h => ?_, fun ws e h => ?_⟩, ⟨fun ws h => ?_, fun ws e h => ?_⟩⟩
  · simp only [FlowMod.writeToOf, hb ws h]
    simp [Enc.writeTo, Enc.gather, Match.writeTo_eq]
  · simp [FlowMod.writeToOf, hf ws e h, Enc.writeTo, Enc.gather, Match.writeTo_eq]
  · simp only [FlowStats.writeToOf, hb ws h]
    generalize ws.flatMap (·.out) = x
    have : ∀ k : Nat, 1 + (1 + (4 + (4 + (2 + (2 + (2 + (2 + (4 + (8 + (8 + (8 + (s.mtch.bytes.length +
        k)))))))))))) + 2 = 48 + s.mtch.bytes.length + k := by omega
    simp [Enc.writeTo, Enc.gather, Match.writeTo_eq, this, -UInt16.ofNat_add]
  · simp [FlowStats.writeToOf, hf ws e h, Enc.writeTo, Enc.gather, Match.writeTo_eq]

/-- C110, bands, elements of a hello, properties of queues and of tables, and the replies that hold
queues and buckets. -/
theorem own_others (m : MeterMod) (c : MeterConfig) (q : PacketQueue) (r : QueueGetConfigReply)
    (t : TableFeatures) (g : GroupDescStats) :
    Framed m.writeToOf (fun x => be m.command ++ be m.flags ++ be m.meter ++ x) ∧
    Framed c.writeToOf (fun x => be (UInt16.ofNat (8 + x.length)) ++ be c.flags ++ be c.meter ++ x) ∧
    Framed Hello.writeToOf id ∧
    Framed q.writeToOf (fun x => be q.queue ++ be q.port ++ be (UInt16.ofNat (x.length + 16)) ++ zeros 6 ++ x) ∧
    Framed r.writeToOf (fun x => be r.port ++ zeros 4 ++ x) ∧
    Framed t.writeToOf (fun x => be (UInt16.ofNat (64 + x.length)) ++ be t.table ++ zeros 5 ++ copyTo t.name 32 ++
      be t.metadataMatch ++ be t.metadataWrite ++ be t.config ++ be t.maxEntries ++ x) ∧
    Framed g.writeToOf (fun x => be (UInt16.ofNat (8 + x.length)) ++ be g.type ++ zeros 1 ++ be g.group ++ x) := by
  refine ⟨⟨fun ws h => ?_, fun ws e h => ?_⟩, ⟨fun ws h => ?_, fun ws e h => ?_⟩, ⟨fun ws h => ?_, fun ws e h => ?_⟩,
    ⟨fun ws h => ?_, fun ws e h => ?_⟩, ⟨fun ws h => ?_, fun ws e h => ?_⟩, ⟨fun ws h => ?_, fun ws e h => ?_⟩,
    ⟨fun ws h => ?_, fun ws e h => ?_⟩⟩
  · simp only [MeterMod.writeToOf, MeterBands.writeToOf, slice_ok ws h]
    simp [Enc.writeTo, Enc.gather]
  · simp [MeterMod.writeToOf, MeterBands.writeToOf, Enc.writeTo, Enc.gather, slice_err h]
  · simp only [MeterConfig.writeToOf, MeterBands.writeToOf, slice_ok ws h]
    simp [Enc.writeTo, Enc.gather]
  · simp [MeterConfig.writeToOf, MeterBands.writeToOf, slice_err h]
  · simp [Hello.writeToOf, HelloElems.writeToOf, slice_ok ws h, Enc.writeTo, Enc.gather]
  · simp [Hello.writeToOf, HelloElems.writeToOf, slice_err h, Enc.writeTo, Enc.gather]
  · simp only [PacketQueue.writeToOf, QueueProps.writeToOf, slice_ok ws h]
    simp [Enc.writeTo, Enc.gather]
  · simp [PacketQueue.writeToOf, QueueProps.writeToOf, slice_err h]
  · simp only [QueueGetConfigReply.writeToOf, slice_ok ws h]
    simp [Enc.writeTo, Enc.gather]
  · simp [QueueGetConfigReply.writeToOf, slice_err h]
  · simp only [TableFeatures.writeToOf, slice_ok ws h]
    simp [Enc.writeTo, Enc.gather]
  · simp [TableFeatures.writeToOf, slice_err h]
  · simp only [GroupDescStats.writeToOf, slice_ok ws h]
    simp [Enc.writeTo, Enc.gather]
  · simp [GroupDescStats.writeToOf, slice_err h]

/-- C110 for group modifications, the part that holds: with buckets that can be encoded the message
is their bytes after the header; otherwise the error is returned.  Missing: that nothing has been
written then, see `own_groupMod_false`: the header and the buckets before the one that fails have. -/
theorem own_groupMod_partial (g : GroupMod) :
    (∀ ws : List Wr, (∀ w ∈ ws, w.err = none) →
      (g.writeToOf ws).out = be g.command ++ be g.type ++ zeros 1 ++ be g.group ++ ws.flatMap (·.out) ∧
      (g.writeToOf ws).n = 8 + (ws.map (·.n)).sum ∧ (g.writeToOf ws).err = none) ∧
    (∀ (a : List Wr) (w : Wr) (b : List Wr) (e : Err), (∀ x ∈ a, x.err = none) → w.err = some e →
      g.writeToOf (a ++ w :: b) = ⟨be g.command ++ be g.type ++ zeros 1 ++ be g.group ++ a.flatMap (·.out) ++ w.out,
        8 + (a.map (·.n)).sum + w.n, some e⟩) := by
  refine ⟨fun ws h => ?_, fun a w b e h hw => ?_⟩
  · simp [GroupMod.writeToOf, slice_ok ws h, Enc.writeTo, Enc.gather]
  · simp [GroupMod.writeToOf, slice_fail a w b e h hw, Enc.writeTo, Enc.gather, Nat.add_assoc]

/-- C110 is false for group modifications: when the only action of the only bucket cannot be encoded,
the eight bytes of the header have been written, and are counted. -/
theorem own_groupMod_false (g : GroupMod) (b : Bucket) (w : Wr) (e : Err) (hw : w.err = some e) :
    (g.writeToOf [b.writeToOf [w]]).out = be g.command ++ be g.type ++ zeros 1 ++ be g.group ∧
      (g.writeToOf [b.writeToOf [w]]).n = 8 ∧ (g.writeToOf [b.writeToOf [w]]).err = some e ∧
      ∀ frame, ¬ Framed g.writeToOf frame := by
  have hb : b.writeToOf [w] = ⟨[], 0, some e⟩ :=
    ((own_actions 0 b ⟨0, 0, [], []⟩).2.2.1).fail [w] e ⟨[], w, [], rfl, by simp, hw⟩
  have := (own_groupMod_partial g).2 [] ⟨[], 0, some e⟩ [] e (by simp) rfl
  rw [hb]
  simp only [List.nil_append] at this
  refine ⟨by rw [this]; simp, by rw [this]; simp, by rw [this], fun frame h => ?_⟩
  have hf := h.fail [⟨[], 0, some e⟩] e ⟨[], _, [], rfl, by simp, rfl⟩
  rw [this] at hf
  have := congrArg Wr.n hf
  simp at this

/-- C110 is false for a list of meter bands that is written by itself: the bands before the one that
fails have been written.  (In a `MeterMod` and a `MeterConfig` they have not: `own_others`.) -/
theorem own_meterBands_false (w v : Wr) (e : Err) (hw : w.err = none) (hn : w.out ≠ []) (hv : v.err = some e) :
    (MeterBands.writeToOf [w, v]).out = w.out ++ v.out ∧ (MeterBands.writeToOf [w, v]).err = some e ∧
      ∀ frame, ¬ Framed MeterBands.writeToOf frame := by
  have := slice_fail [w] v [] e (by simpa using hw) hv
  simp at this
  refine ⟨by simp [MeterBands.writeToOf, this], by simp [MeterBands.writeToOf, this], fun frame h => ?_⟩
  have hf := h.fail [w, v] e ⟨[w], v, [], rfl, by simpa using hw, hv⟩
  rw [MeterBands.writeToOf, this] at hf
  have := congrArg Wr.out hf
  simp at this
  exact hn this.1

/-- C110 on the wire, for every message: one that cannot be encoded, sent as a request or written as
a reply, leaves the connection as it was, whatever it has written before it failed, and the caller
gets the error. -/
theorem own_wire (c : BW) (t : UInt8) (rv : UInt8) (h : Header) (w : Wr) (e : Err) (hw : w.err = some e) :
    (Conn.send c (newRequest t (some fun _ => w))).1 = some e ∧
    (Conn.send c (newRequest t (some fun _ => w))).2.1 = c ∧
    (Response.write c rv h (some w)).1 = some e ∧ (Response.write c rv h (some w)).2.1 = c := by
  have hr := response_fails c rv h w e hw
  refine ⟨?_, ?_, ?_, ?_⟩
  · simp [Conn.send, newRequest, Request.writeTo, Body.copyTo, CopyReader.writeTo, hw]
  · simp [Conn.send, newRequest, Request.writeTo, Body.copyTo, CopyReader.writeTo, hw]
  · simp [Response.write, hw]
  · simp [Response.write, hw]

/-- Own actions in a flow modification: two instructions, the first applies an action of the package
and one of the user's own type that is sixteen bytes long; and the same with one that fails. -/
example :
    let own : Wr := ⟨[0xff, 0xff, 0, 16, 0, 0, 0, 1, 1, 2, 3, 4, 5, 6, 7, 8], 16, none⟩
    let f : FlowMod := ⟨1, 0, 0, 0, 0, 0, 0, 0, 0, 0, 0, ⟨1, []⟩, []⟩
    (f.writeToOf [writeInstructionActionsOf 4 [(Action.popVLAN).writeTo, own], (Instruction.meter 7).writeTo]).out.drop 48 =
      [0, 4, 0, 32, 0, 0, 0, 0, 0, 18, 0, 8, 0, 0, 0, 0, 0xff, 0xff, 0, 16, 0, 0, 0, 1, 1, 2, 3, 4, 5, 6, 7, 8,
        0, 6, 0, 8, 0, 0, 0, 7] ∧
    f.writeToOf [writeInstructionActionsOf 4 [(Action.popVLAN).writeTo, { own with err := some (.io 5) }],
      (Instruction.meter 7).writeTo] = ⟨[], 0, some (.io 5)⟩ := by decide +kernel

end Verif.Props
