import Verif.Model.Frames.Mgmt
/-!
# `/repo/src/frames/control_frame/mod.rs`

The parser gets the subtype and the flags as context; the frame control field is neither read nor
written here.
-/
namespace Verif

/-- `ControlFrame`, /repo/src/frames/control_frame/mod.rs:13-35. -/
inductive ControlFrame where
  | RTS (fcf_flags : FCFFlags) (duration : BitVec 16) (receiver_address transmitter_address : Mac)
  | CTS (fcf_flags : FCFFlags) (duration : BitVec 16) (receiver_address : Mac)
  | Ack (fcf_flags : FCFFlags) (duration : BitVec 16) (receiver_address : Mac)
  | Unknown (subtype : ControlFrameSubtype) (fcf_flags : FCFFlags) (body : Bytes)
  deriving DecidableEq

namespace ControlFrame

/-- `length_in_bytes`, /repo/src/frames/control_frame/mod.rs:38-45; also `measure_with`, :132-136. -/
def lengthInBytes : ControlFrame → Nat
  | .RTS .. => 14
  | .CTS .. => 8
  | .Ack .. => 14
  | .Unknown _ _ body => body.length

/-- `get_subtype`, /repo/src/frames/control_frame/mod.rs:47-54. -/
def getSubtype : ControlFrame → ControlFrameSubtype
  | .RTS .. => .RTS
  | .CTS .. => .CTS
  | .Ack .. => .Ack
  | .Unknown s _ _ => s

/-- `get_fcf_flags`, /repo/src/frames/control_frame/mod.rs:56-63. -/
def getFcfFlags : ControlFrame → FCFFlags
  | .RTS f .. | .CTS f .. | .Ack f .. | .Unknown _ f _ => f

/-- `get_fcf`, /repo/src/frames/control_frame/mod.rs:65-69. -/
def getFcf (c : ControlFrame) : Res FrameControlField := do
  let f ← FrameControlField.withFrameType ⟨0⟩ (.Control c.getSubtype)
  pure (f.withFcfFlags c.getFcfFlags)

/-- `receiver_address`, /repo/src/frames/control_frame/mod.rs:71-84; the default address is zero. -/
def receiverAddress [ScrollRule] : ControlFrame → Mac
  | .RTS _ _ ra _ | .CTS _ _ ra | .Ack _ _ ra => ra
  | .Unknown _ _ body =>
    match pread readMac 2 body with
    | .ok a => a
    | _ => ⟨[0, 0, 0, 0, 0, 0], rfl⟩

/-- `transmitter_address`, /repo/src/frames/control_frame/mod.rs:86-94. -/
def transmitterAddress : ControlFrame → Option Mac
  | .RTS _ _ _ ta => some ta
  | _ => none

end ControlFrame

variable [ScrollRule]

/-- `try_from_ctx`, /repo/src/frames/control_frame/mod.rs:96-131. -/
def readControlFrame (subtype : ControlFrameSubtype) (f : FCFFlags) : Reader ControlFrame := Rd.run do
  match subtype with
  | .RTS => do
    let d ← Rd.gread (readLE 16)
    let ra ← Rd.gread readMac
    let ta ← Rd.gread readMac
    pure (.RTS f d ra ta)
  | .CTS => do
    let d ← Rd.gread (readLE 16)
    let ra ← Rd.gread readMac
    pure (.CTS f d ra)
  | .Ack => do
    let d ← Rd.gread (readLE 16)
    let ra ← Rd.gread readMac
    pure (.Ack f d ra)
  | s => do
    let body ← Rd.remaining
    Rd.toEnd
    pure (.Unknown s f body)

/-- `try_into_ctx`, /repo/src/frames/control_frame/mod.rs:137-174. -/
def writeControlFrame : ControlFrame → Writer
  | .RTS _ d ra ta => Wr.run do
    Wr.gwrite (writeLE d)
    Wr.gwrite (writeBytes ra.val)
    Wr.gwrite (writeBytes ta.val)
  | .CTS _ d ra => Wr.run do
    Wr.gwrite (writeLE d)
    Wr.gwrite (writeBytes ra.val)
  | .Ack _ d ra => Wr.run do
    Wr.gwrite (writeLE d)
    Wr.gwrite (writeBytes ra.val)
  | .Unknown _ _ body => Wr.run do
    Wr.gwrite (writeBytes body)

end Verif
