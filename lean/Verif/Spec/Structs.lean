import Verif.Go.Bytes

/-!
# The messages of OpenFlow 1.3, as the specification lays them out

The structs of `openflow.h` (OpenFlow Switch Specification, version 1.3, appendix A) and a reader
for them that follows the specification and nothing else: members one after another in network
byte order, padding ignored, lists of variable-size records taken apart by their length fields,
records told apart by their type numbers.  Nothing here is taken from the Go source or from the
model.
-/

namespace Verif.Spec

/-- A member of a struct. -/
inductive Member where
  /-- An unsigned integer of so many bytes. -/
  | num (name : String) (bytes : Nat)
  /-- Padding. -/
  | pad (bytes : Nat)
  /-- An array of bytes. -/
  | raw (name : String) (bytes : Nat)
  /-- A null-terminated string in an array of characters. -/
  | text (name : String) (bytes : Nat)

/-- The value of a member. -/
inductive Value where
  | num (n : Nat)
  | bytes (b : List UInt8)
  deriving DecidableEq, Repr

/-- The values of the members of a struct, in order, by their names. -/
abbrev Record := List (String × Value)

/-- Reads the members of a struct off the front of some bytes. -/
def read : List Member → List UInt8 → Option (Record × List UInt8)
  | [], b => some ([], b)
  | .num n k :: ms, b => if k ≤ b.length then
      (read ms (b.drop k)).map fun (r, t) => ((n, .num (getBE (b.take k))) :: r, t) else none
  | .pad k :: ms, b => if k ≤ b.length then read ms (b.drop k) else none
  | .raw n k :: ms, b => if k ≤ b.length then
      (read ms (b.drop k)).map fun (r, t) => ((n, .bytes (b.take k)) :: r, t) else none
  | .text n k :: ms, b => if k ≤ b.length then
      (read ms (b.drop k)).map fun (r, t) => ((n, .bytes ((b.take k).takeWhile (· ≠ 0))) :: r, t) else none

/-- Bytes that are exactly one struct. -/
def struct (ms : List Member) (b : List UInt8) : Option Record :=
  match read ms b with
  | some (r, []) => some r
  | _ => none

/-- The two-byte number at an offset. -/
def u16 (off : Nat) (b : List UInt8) : Nat := getBE ((b.drop off).take 2)

/-- The byte at an offset. -/
def u8 (off : Nat) (b : List UInt8) : Nat := getBE ((b.drop off).take 1)

/-- Takes apart a list of records, each of which has its length in two bytes at offset `off` and
is followed by padding to a multiple of `align` bytes. -/
def recordsFuel (off align : Nat) : Nat → List UInt8 → Option (List (List UInt8))
  | 0, b => if b = [] then some [] else none
  | fuel + 1, b => if b = [] then some [] else
      let n := u16 off b
      let m := (n + align - 1) / align * align
      if off + 2 ≤ n ∧ m ≤ b.length then (recordsFuel off align fuel (b.drop m)).map (b.take n :: ·) else none

def records (off align : Nat) (b : List UInt8) : Option (List (List UInt8)) := recordsFuel off align b.length b

/-- Takes apart a list of structs of `size` bytes. -/
def chunksFuel (size : Nat) : Nat → List UInt8 → Option (List (List UInt8))
  | 0, b => if b = [] then some [] else none
  | fuel + 1, b => if b = [] then some [] else
      if size ≤ b.length then (chunksFuel size fuel (b.drop size)).map (b.take size :: ·) else none

def chunks (size : Nat) (b : List UInt8) : Option (List (List UInt8)) := chunksFuel size b.length b

/-- Reads every record of a list. -/
def each {α : Type} (f : List UInt8 → Option α) : List (List UInt8) → Option (List α)
  | [] => some []
  | b :: bs => do return (← f b) :: (← each f bs)

/-- Reads a list of records with a two-byte length at offset `off`, padded to multiples of `align`. -/
def list {α : Type} (off align : Nat) (f : List UInt8 → Option α) (b : List UInt8) : Option (List α) :=
  (records off align b).bind (each f)

/-- Reads an array of structs of `size` bytes. -/
def array {α : Type} (size : Nat) (f : List UInt8 → Option α) (b : List UInt8) : Option (List α) :=
  (chunks size b).bind (each f)

/-! ## Matches, section 7.2.2 -/

/-- An OXM field, figure 12: class, field, and its payload; with the mask bit the payload is a
value and a mask of equal length.  (The experimenter class, whose payload begins with the number of
the experimenter, is not told apart.) -/
structure Oxm where
  cls : Nat
  field : Nat
  value : List UInt8
  mask : Option (List UInt8)
  deriving DecidableEq, Repr

/-- One OXM field. -/
def oxm (b : List UInt8) : Option Oxm :=
  let f := u8 2 b
  let n := u8 3 b
  if b.length ≠ 4 + n then none
  else if f % 2 = 0 then some ⟨u16 0 b, f / 2, b.drop 4, none⟩
  else if n % 2 = 0 then some ⟨u16 0 b, f / 2, (b.drop 4).take (n / 2), some ((b.drop 4).drop (n / 2))⟩
  else none

/-- A list of OXM fields, each of four bytes and as many as its fourth byte says. -/
def oxmsFuel : Nat → List UInt8 → Option (List Oxm)
  | 0, b => if b = [] then some [] else none
  | fuel + 1, b => if b = [] then some [] else
      if 4 + u8 3 b ≤ b.length then
        do return (← oxm (b.take (4 + u8 3 b))) :: (← oxmsFuel fuel (b.drop (4 + u8 3 b)))
      else none

def oxms (b : List UInt8) : Option (List Oxm) := oxmsFuel b.length b

/-- struct ofp_match. -/
structure Match where
  type : Nat
  fields : List Oxm
  deriving DecidableEq, Repr

/-- The match at the front of some bytes: type, length without padding, fields, padding to a
multiple of eight bytes. -/
def matchAt (b : List UInt8) : Option (Match × List UInt8) :=
  let n := u16 2 b
  let m := (n + 7) / 8 * 8
  if 4 ≤ n ∧ m ≤ b.length then do
    return (⟨u16 0 b, ← oxms ((b.take n).drop 4)⟩, b.drop m)
  else none

/-! ## Actions, section 7.2.5 -/

structure Action where
  name : String
  members : Record
  field : Option Oxm
  deriving DecidableEq, Repr

/-- The structs of the actions, behind type and length. -/
def actionStructs : List (Nat × String × List Member) :=
  [(0, "OFPAT_OUTPUT", [.num "port" 4, .num "max_len" 2, .pad 6]),
   (11, "OFPAT_COPY_TTL_OUT", [.pad 4]),
   (12, "OFPAT_COPY_TTL_IN", [.pad 4]),
   (15, "OFPAT_SET_MPLS_TTL", [.num "mpls_ttl" 1, .pad 3]),
   (16, "OFPAT_DEC_MPLS_TTL", [.pad 4]),
   (17, "OFPAT_PUSH_VLAN", [.num "ethertype" 2, .pad 2]),
   (18, "OFPAT_POP_VLAN", [.pad 4]),
   (19, "OFPAT_PUSH_MPLS", [.num "ethertype" 2, .pad 2]),
   (20, "OFPAT_POP_MPLS", [.num "ethertype" 2, .pad 2]),
   (21, "OFPAT_SET_QUEUE", [.num "queue_id" 4]),
   (22, "OFPAT_GROUP", [.num "group_id" 4]),
   (23, "OFPAT_SET_NW_TTL", [.num "nw_ttl" 1, .pad 3]),
   (24, "OFPAT_DEC_NW_TTL", [.pad 4]),
   (26, "OFPAT_PUSH_PBB", [.num "ethertype" 2, .pad 2]),
   (27, "OFPAT_POP_PBB", [.pad 4]),
   (0xffff, "OFPAT_EXPERIMENTER", [.num "experimenter" 4])]

/-- One action.  Its length is a multiple of eight. -/
def action (b : List UInt8) : Option Action :=
  if b.length % 8 ≠ 0 ∨ u16 2 b ≠ b.length then none
  else if u16 0 b = 25 then
    let n := 4 + u8 7 b
    if (4 + n + 7) / 8 * 8 = b.length then
      do return ⟨"OFPAT_SET_FIELD", [], some (← oxm ((b.drop 4).take n))⟩
    else none
  else do
    let (name, ms) ← actionStructs.lookup (u16 0 b)
    return ⟨name, ← struct ms (b.drop 4), none⟩

def actions (b : List UInt8) : Option (List Action) := list 2 1 action b

/-! ## Instructions, section 7.2.4 -/

structure Instruction where
  name : String
  members : Record
  actions : List Action
  deriving DecidableEq, Repr

/-- The structs of the instructions without actions, behind type and length.  (OFPIT_CLEAR_ACTIONS
has the struct of the instructions with actions, but contains none.) -/
def instructionStructs : List (Nat × String × List Member) :=
  [(1, "OFPIT_GOTO_TABLE", [.num "table_id" 1, .pad 3]),
   (2, "OFPIT_WRITE_METADATA", [.pad 4, .num "metadata" 8, .num "metadata_mask" 8]),
   (5, "OFPIT_CLEAR_ACTIONS", [.pad 4]),
   (6, "OFPIT_METER", [.num "meter_id" 4])]

/-- The instructions with a list of actions, behind type, length and four bytes of padding. -/
def instructionLists : List (Nat × String) :=
  [(3, "OFPIT_WRITE_ACTIONS"), (4, "OFPIT_APPLY_ACTIONS")]

/-- One instruction. -/
def instruction (b : List UInt8) : Option Instruction :=
  if b.length % 8 ≠ 0 ∨ u16 2 b ≠ b.length then none
  else match instructionLists.lookup (u16 0 b) with
    | some name => if 8 ≤ b.length then do return ⟨name, [], ← actions (b.drop 8)⟩ else none
    | none => do
      let (name, ms) ← instructionStructs.lookup (u16 0 b)
      return ⟨name, ← struct ms (b.drop 4), []⟩

def instructions (b : List UInt8) : Option (List Instruction) := list 2 1 instruction b

/-! ## Structs without variable parts -/

/-- struct ofp_header. -/
def header : List Member := [.num "version" 1, .num "type" 1, .num "length" 2, .num "xid" 4]

/-- struct ofp_port. -/
def port : List Member :=
  [.num "port_no" 4, .pad 4, .raw "hw_addr" 6, .pad 2, .text "name" 16, .num "config" 4, .num "state" 4,
   .num "curr" 4, .num "advertised" 4, .num "supported" 4, .num "peer" 4, .num "curr_speed" 4, .num "max_speed" 4]

/-- struct ofp_switch_features. -/
def switchFeatures : List Member :=
  [.num "datapath_id" 8, .num "n_buffers" 4, .num "n_tables" 1, .num "auxiliary_id" 1, .pad 2,
   .num "capabilities" 4, .num "reserved" 4]

/-- struct ofp_switch_config. -/
def switchConfig : List Member := [.num "flags" 2, .num "miss_send_len" 2]

/-- struct ofp_table_mod. -/
def tableMod : List Member := [.num "table_id" 1, .pad 3, .num "config" 4]

/-- struct ofp_port_mod. -/
def portMod : List Member :=
  [.num "port_no" 4, .pad 4, .raw "hw_addr" 6, .pad 2, .num "config" 4, .num "mask" 4, .num "advertise" 4, .pad 4]

/-- struct ofp_port_status, in front of the port. -/
def portStatus : List Member := [.num "reason" 1, .pad 7]

/-- struct ofp_role_request. -/
def roleRequest : List Member := [.num "role" 4, .pad 4, .num "generation_id" 8]

/-- struct ofp_async_config. -/
def asyncConfig : List Member :=
  [.num "packet_in_mask[0]" 4, .num "packet_in_mask[1]" 4, .num "port_status_mask[0]" 4, .num "port_status_mask[1]" 4,
   .num "flow_removed_mask[0]" 4, .num "flow_removed_mask[1]" 4]

/-- struct ofp_experimenter_header. -/
def experimenterHeader : List Member := [.num "experimenter" 4, .num "exp_type" 4]

/-- struct ofp_error_msg, in front of the data. -/
def errorMsg : List Member := [.num "type" 2, .num "code" 2]

/-- struct ofp_error_experimenter_msg, in front of the data. -/
def errorExperimenterMsg : List Member := [.num "type" 2, .num "exp_type" 2, .num "experimenter" 4]

/-- struct ofp_multipart_request and struct ofp_multipart_reply, in front of the body. -/
def multipart : List Member := [.num "type" 2, .num "flags" 2, .pad 4]

/-- struct ofp_experimenter_multipart_header. -/
def experimenterMultipartHeader : List Member := [.num "experimenter" 4, .num "exp_type" 4]

/-- struct ofp_desc. -/
def desc : List Member :=
  [.text "mfr_desc" 256, .text "hw_desc" 256, .text "sw_desc" 256, .text "serial_num" 32, .text "dp_desc" 256]

/-- struct ofp_aggregate_stats_reply. -/
def aggregateStatsReply : List Member := [.num "packet_count" 8, .num "byte_count" 8, .num "flow_count" 4, .pad 4]

/-- struct ofp_table_stats. -/
def tableStats : List Member :=
  [.num "table_id" 1, .pad 3, .num "active_count" 4, .num "lookup_count" 8, .num "matched_count" 8]

/-- struct ofp_port_stats_request. -/
def portStatsRequest : List Member := [.num "port_no" 4, .pad 4]

/-- struct ofp_port_stats. -/
def portStats : List Member :=
  [.num "port_no" 4, .pad 4, .num "rx_packets" 8, .num "tx_packets" 8, .num "rx_bytes" 8, .num "tx_bytes" 8,
   .num "rx_dropped" 8, .num "tx_dropped" 8, .num "rx_errors" 8, .num "tx_errors" 8, .num "rx_frame_err" 8,
   .num "rx_over_err" 8, .num "rx_crc_err" 8, .num "collisions" 8, .num "duration_sec" 4, .num "duration_nsec" 4]

/-- struct ofp_queue_stats_request. -/
def queueStatsRequest : List Member := [.num "port_no" 4, .num "queue_id" 4]

/-- struct ofp_queue_stats. -/
def queueStats : List Member :=
  [.num "port_no" 4, .num "queue_id" 4, .num "tx_bytes" 8, .num "tx_packets" 8, .num "tx_errors" 8,
   .num "duration_sec" 4, .num "duration_nsec" 4]

/-- struct ofp_group_stats_request. -/
def groupStatsRequest : List Member := [.num "group_id" 4, .pad 4]

/-- struct ofp_group_features. -/
def groupFeatures : List Member :=
  [.num "types" 4, .num "capabilities" 4, .num "max_groups[0]" 4, .num "max_groups[1]" 4, .num "max_groups[2]" 4,
   .num "max_groups[3]" 4, .num "actions[0]" 4, .num "actions[1]" 4, .num "actions[2]" 4, .num "actions[3]" 4]

/-- struct ofp_meter_multipart_request. -/
def meterMultipartRequest : List Member := [.num "meter_id" 4, .pad 4]

/-- struct ofp_meter_features. -/
def meterFeatures : List Member :=
  [.num "max_meter" 4, .num "band_types" 4, .num "capabilities" 4, .num "max_bands" 1, .num "max_color" 1, .pad 2]

/-- struct ofp_queue_get_config_request. -/
def queueGetConfigRequest : List Member := [.num "port" 4, .pad 4]

/-- struct ofp_bucket_counter. -/
def bucketCounter : List Member := [.num "packet_count" 8, .num "byte_count" 8]

/-- struct ofp_meter_band_stats. -/
def meterBandStats : List Member := [.num "packet_band_count" 8, .num "byte_band_count" 8]

/-! ## Messages with variable parts -/

/-- struct ofp_flow_mod, in front of the match. -/
def flowModHead : List Member :=
  [.num "cookie" 8, .num "cookie_mask" 8, .num "table_id" 1, .num "command" 1, .num "idle_timeout" 2,
   .num "hard_timeout" 2, .num "priority" 2, .num "buffer_id" 4, .num "out_port" 4, .num "out_group" 4,
   .num "flags" 2, .pad 2]

/-- struct ofp_flow_stats, in front of the match. -/
def flowStatsHead : List Member :=
  [.num "length" 2, .num "table_id" 1, .pad 1, .num "duration_sec" 4, .num "duration_nsec" 4, .num "priority" 2,
   .num "idle_timeout" 2, .num "hard_timeout" 2, .num "flags" 2, .pad 4, .num "cookie" 8, .num "packet_count" 8,
   .num "byte_count" 8]

/-- struct ofp_flow_removed, in front of the match. -/
def flowRemovedHead : List Member :=
  [.num "cookie" 8, .num "priority" 2, .num "reason" 1, .num "table_id" 1, .num "duration_sec" 4,
   .num "duration_nsec" 4, .num "idle_timeout" 2, .num "hard_timeout" 2, .num "packet_count" 8, .num "byte_count" 8]

/-- struct ofp_flow_stats_request and struct ofp_aggregate_stats_request, in front of the match. -/
def flowStatsRequestHead : List Member :=
  [.num "table_id" 1, .pad 3, .num "out_port" 4, .num "out_group" 4, .pad 4, .num "cookie" 8, .num "cookie_mask" 8]

/-- struct ofp_packet_in, in front of the match. -/
def packetInHead : List Member :=
  [.num "buffer_id" 4, .num "total_len" 2, .num "reason" 1, .num "table_id" 1, .num "cookie" 8]

/-- struct ofp_packet_out, in front of the actions. -/
def packetOutHead : List Member := [.num "buffer_id" 4, .num "in_port" 4, .num "actions_len" 2, .pad 6]

/-- A message that is a struct, a match and instructions. -/
def withFlow (ms : List Member) (b : List UInt8) : Option (Record × Match × List Instruction) := do
  let (r, b) ← read ms b
  let (m, b) ← matchAt b
  return (r, m, ← instructions b)

/-- A message that is a struct and a match. -/
def withMatch (ms : List Member) (b : List UInt8) : Option (Record × Match) := do
  let (r, b) ← read ms b
  match ← matchAt b with
  | (m, []) => return (r, m)
  | _ => none

/-- struct ofp_packet_in. -/
def packetIn (b : List UInt8) : Option (Record × Match × List UInt8) := do
  let (r, b) ← read packetInHead b
  let (m, b) ← matchAt b
  let (_, data) ← read [.pad 2] b
  return (r, m, data)

/-- struct ofp_packet_out. -/
def packetOut (b : List UInt8) : Option (Record × List Action × List UInt8) := do
  let n := u16 8 b
  let (r, b) ← read packetOutHead b
  if n ≤ b.length then return (r, ← actions (b.take n), b.drop n) else none

/-- struct ofp_bucket: the struct, and the actions. -/
def bucket (b : List UInt8) : Option (Record × List Action) := do
  let (r, as) ← read [.num "len" 2, .num "weight" 2, .num "watch_port" 4, .num "watch_group" 4, .pad 4] b
  return (r, ← actions as)

def buckets (b : List UInt8) : Option (List (Record × List Action)) := list 0 1 bucket b

/-- struct ofp_group_mod. -/
def groupMod (b : List UInt8) : Option (Record × List (Record × List Action)) := do
  let (r, b) ← read [.num "command" 2, .num "type" 1, .pad 1, .num "group_id" 4] b
  return (r, ← buckets b)

/-- struct ofp_group_desc. -/
def groupDesc (b : List UInt8) : Option (Record × List (Record × List Action)) := do
  let (r, b) ← read [.num "length" 2, .num "type" 1, .pad 1, .num "group_id" 4] b
  return (r, ← buckets b)

/-- struct ofp_group_stats. -/
def groupStats (b : List UInt8) : Option (Record × List Record) := do
  let (r, b) ← read [.num "length" 2, .pad 2, .num "group_id" 4, .num "ref_count" 4, .pad 4, .num "packet_count" 8,
    .num "byte_count" 8, .num "duration_sec" 4, .num "duration_nsec" 4] b
  return (r, ← array 16 (struct bucketCounter) b)

/-- The structs of the meter bands, behind type and length. -/
def bandStructs : List (Nat × String × List Member) :=
  [(1, "OFPMBT_DROP", [.num "rate" 4, .num "burst_size" 4, .pad 4]),
   (2, "OFPMBT_DSCP_REMARK", [.num "rate" 4, .num "burst_size" 4, .num "prec_level" 1, .pad 3]),
   (0xffff, "OFPMBT_EXPERIMENTER", [.num "rate" 4, .num "burst_size" 4, .num "experimenter" 4])]

/-- One meter band. -/
def band (b : List UInt8) : Option (String × Record) := do
  let (name, ms) ← bandStructs.lookup (u16 0 b)
  return (name, ← struct ms (b.drop 4))

def bands (b : List UInt8) : Option (List (String × Record)) := list 2 1 band b

/-- struct ofp_meter_mod. -/
def meterMod (b : List UInt8) : Option (Record × List (String × Record)) := do
  let (r, b) ← read [.num "command" 2, .num "flags" 2, .num "meter_id" 4] b
  return (r, ← bands b)

/-- struct ofp_meter_config. -/
def meterConfig (b : List UInt8) : Option (Record × List (String × Record)) := do
  let (r, b) ← read [.num "length" 2, .num "flags" 2, .num "meter_id" 4] b
  return (r, ← bands b)

/-- struct ofp_meter_stats. -/
def meterStats (b : List UInt8) : Option (Record × List Record) := do
  let (r, b) ← read [.num "meter_id" 4, .num "len" 2, .pad 6, .num "flow_count" 4, .num "packet_in_count" 8,
    .num "byte_in_count" 8, .num "duration_sec" 4, .num "duration_nsec" 4] b
  return (r, ← array 16 (struct meterBandStats) b)

/-- The structs of the queue properties, behind type, length and padding, in front of the data that
an experimenter property may have. -/
def queuePropStructs : List (Nat × String × List Member) :=
  [(1, "OFPQT_MIN_RATE", [.num "rate" 2, .pad 6]),
   (2, "OFPQT_MAX_RATE", [.num "rate" 2, .pad 6]),
   (0xffff, "OFPQT_EXPERIMENTER", [.num "experimenter" 4, .pad 4])]

/-- One queue property. -/
def queueProp (b : List UInt8) : Option (String × Record × List UInt8) := do
  let (name, ms) ← queuePropStructs.lookup (u16 0 b)
  let (r, data) ← read ms (b.drop 8)
  if u16 0 b = 0xffff ∨ data = [] then return (name, r, data) else none

/-- struct ofp_packet_queue. -/
def packetQueue (b : List UInt8) : Option (Record × List (String × Record × List UInt8)) := do
  let (r, b) ← read [.num "queue_id" 4, .num "port" 4, .num "len" 2, .pad 6] b
  return (r, ← list 2 1 queueProp b)

/-- struct ofp_queue_get_config_reply. -/
def queueGetConfigReply (b : List UInt8) :
    Option (Record × List (Record × List (String × Record × List UInt8))) := do
  let (r, b) ← read [.num "port" 4, .pad 4] b
  return (r, ← list 8 1 packetQueue b)

/-- One element of a hello message: struct ofp_hello_elem_versionbitmap, whose length does not
count the padding behind it. -/
def helloElem (b : List UInt8) : Option (List Nat) :=
  if u16 0 b = 1 then array 4 (fun w => some (getBE w)) (b.drop 4) else none

/-- struct ofp_hello. -/
def hello (b : List UInt8) : Option (List (List Nat)) := list 2 8 helloElem b

/-- The properties of table features that are lists: of instruction identifiers (struct
ofp_instruction without its body: type and length 4), of table numbers, of action identifiers, of
OXM headers. -/
inductive TableProp where
  | ids (name : String) (types : List Nat)
  | tables (name : String) (ids : List Nat)
  | oxmIds (name : String) (fields : List (Nat × Nat × Bool × Nat))
  | experimenter (name : String) (members : Record) (data : List UInt8)
  deriving DecidableEq, Repr

/-- enum ofp_table_feature_prop_type: what the properties consist of. -/
def tablePropTypes : List (Nat × String × Nat) :=
  [(0, "OFPTFPT_INSTRUCTIONS", 0), (1, "OFPTFPT_INSTRUCTIONS_MISS", 0), (2, "OFPTFPT_NEXT_TABLES", 1),
   (3, "OFPTFPT_NEXT_TABLES_MISS", 1), (4, "OFPTFPT_WRITE_ACTIONS", 0), (5, "OFPTFPT_WRITE_ACTIONS_MISS", 0),
   (6, "OFPTFPT_APPLY_ACTIONS", 0), (7, "OFPTFPT_APPLY_ACTIONS_MISS", 0), (8, "OFPTFPT_MATCH", 2),
   (10, "OFPTFPT_WILDCARDS", 2), (12, "OFPTFPT_WRITE_SETFIELD", 2), (13, "OFPTFPT_WRITE_SETFIELD_MISS", 2),
   (14, "OFPTFPT_APPLY_SETFIELD", 2), (15, "OFPTFPT_APPLY_SETFIELD_MISS", 2), (0xfffe, "OFPTFPT_EXPERIMENTER", 3),
   (0xffff, "OFPTFPT_EXPERIMENTER_MISS", 3)]

/-- An identifier of an instruction or action: its type, and the length 4. -/
def typeId (b : List UInt8) : Option Nat := if u16 2 b = 4 then some (u16 0 b) else none

/-- An OXM header: class, field, mask bit, length. -/
def oxmId (b : List UInt8) : Option (Nat × Nat × Bool × Nat) :=
  if b.length = 4 then some (u16 0 b, u8 2 b / 2, u8 2 b % 2 == 1, u8 3 b) else none

/-- One property of table features. -/
def tableProp (b : List UInt8) : Option TableProp := do
  let (name, kind) ← tablePropTypes.lookup (u16 0 b)
  match kind with
  | 0 => return .ids name (← array 4 typeId (b.drop 4))
  | 1 => return .tables name ((b.drop 4).map UInt8.toNat)
  | 2 => return .oxmIds name (← array 4 oxmId (b.drop 4))
  | _ => do
    let (r, data) ← read [.num "experimenter" 4, .num "exp_type" 4] (b.drop 4)
    return .experimenter name r data

/-- struct ofp_table_features. -/
def tableFeatures (b : List UInt8) : Option (Record × List TableProp) := do
  let (r, b) ← read [.num "length" 2, .num "table_id" 1, .pad 5, .text "name" 32, .num "metadata_match" 8,
    .num "metadata_write" 8, .num "config" 4, .num "max_entries" 4] b
  return (r, ← list 2 8 tableProp b)

end Verif.Spec
