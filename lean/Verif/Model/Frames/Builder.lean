import Verif.Model.Frames.Data
/-!
# `/repo/src/frames/data_frame/builder.rs`

The builder is a type state machine: its type parameters say which methods exist.  Here the type
parameters are values, and a method which does not exist for the parameters (a program which does not
compile) returns `none`.  A sequence of method calls is a list of `BuilderOp`.
-/
namespace Verif

/-- The parameter `DS`: `()` and the four types of /repo/src/common/type_state.rs:20-23. -/
inductive DSState where
  | Undecided | NeitherToNorFromDS | ToDS | FromDS | ToAndFromDS
  deriving DecidableEq, Repr

/-- The parameter `Category`, /repo/src/frames/data_frame/builder.rs:61-64 (`()` is `none` below). -/
inductive DataCategory where
  | Data | DataNull | QoS | QoSNull
  deriving DecidableEq, Repr

/-- `UPPER_TWO_BITS`, /repo/src/frames/data_frame/builder.rs:61-64. -/
def DataCategory.UPPER_TWO_BITS : DataCategory → BitVec 8
  | .Data => 0b00
  | .DataNull => 0b01
  | .QoS => 0b10
  | .QoSNull => 0b11

/-- The bound `HasPayload`, /repo/src/frames/data_frame/builder.rs:61-64. -/
def DataCategory.hasPayload : DataCategory → Bool
  | .Data | .QoS => true
  | .DataNull | .QoSNull => false

/-- The parameter `PayloadType`: `()`, `Empty`, `&[u8]`, `AMSDUPayload<_>`, or anything else. -/
inductive PayloadType where
  | Unit | Empty | Bytes | AMSDU | Other
  deriving DecidableEq, Repr

/-- The payload types a caller can pass to `payload`. -/
inductive GivenPayload where
  | Bytes | AMSDU | Other
  deriving DecidableEq, Repr

def GivenPayload.type : GivenPayload → PayloadType
  | .Bytes => .Bytes
  | .AMSDU => .AMSDU
  | .Other => .Other

/-- `DataFrameBuilderInner`, /repo/src/frames/data_frame/builder.rs:67-84.  `Address1`, `Address2`,
`Address3` are `()` or `MACAddress`, here an option; `Address4` is a phantom parameter, `address4Type`
says that it is `MACAddress`. -/
structure DataFrameBuilder (π : Type) where
  ds : DSState
  category : Option DataCategory
  payloadType : PayloadType
  address_1 : Option Mac
  address_2 : Option Mac
  address_3 : Option Mac
  address4Type : Bool
  address_4 : Option Mac
  payload : Option π
  fcf_flags : FCFFlags

/-- The methods of the builder. -/
inductive BuilderOp (π : Type) where
  | neither_to_nor_from_ds | to_ds | from_ds | to_and_from_ds
  | category (c : DataCategory)
  | payload (t : GivenPayload) (p : π)
  | payload_amsdu (p : π)
  | receiver_address (a : Mac)
  | transmitter_address (a : Mac)
  | destination_address (a : Mac)
  | source_address (a : Mac)
  | bssid (a : Mac)
  | more_fragments | retry | power_management | more_data | «protected» | order

namespace DataFrameBuilder

variable {π : Type}

/-- `new`, /repo/src/frames/data_frame/builder.rs:120-132. -/
def new : DataFrameBuilder π :=
  ⟨.Undecided, none, .Unit, none, none, none, false, none, none, ⟨0⟩⟩

/-- All of `Category`, `PayloadType` and the addresses are `()`. -/
def blank (b : DataFrameBuilder π) : Bool :=
  b.category.isNone && b.payloadType == .Unit && b.address_1.isNone && b.address_2.isNone &&
    b.address_3.isNone && !b.address4Type

/-- One method call. -/
def apply (b : DataFrameBuilder π) : BuilderOp π → Option (DataFrameBuilder π)
  -- /repo/src/frames/data_frame/builder.rs:133-151
  | .neither_to_nor_from_ds =>
    if b.ds = .Undecided ∧ b.blank then some { b with ds := .NeitherToNorFromDS } else none
  | .to_ds =>
    if b.ds = .Undecided ∧ b.blank then
      some { b with ds := .ToDS, fcf_flags := b.fcf_flags.with_to_ds true } else none
  | .from_ds =>
    if b.ds = .Undecided ∧ b.blank then
      some { b with ds := .FromDS, fcf_flags := b.fcf_flags.with_from_ds true } else none
  | .to_and_from_ds =>
    if b.ds = .Undecided ∧ b.blank then
      some { b with ds := .ToAndFromDS,
                    fcf_flags := (b.fcf_flags.with_to_ds true).with_from_ds true } else none
  -- /repo/src/frames/data_frame/builder.rs:153-186: for any `DS`, even `()`
  | .category c =>
    if b.blank then
      some (match c with
        | .Data | .QoS => { b with category := some c }
        | .DataNull => { b with category := some c, payloadType := .Empty, payload := none }
        | .QoSNull => { b with category := some c, payload := none })
    else none
  -- /repo/src/frames/data_frame/builder.rs:187-204
  | .payload t p =>
    match b.category with
    | some c =>
      if c.hasPayload ∧ b.payloadType = .Unit ∧ b.address_1.isNone ∧ b.address_2.isNone ∧
          b.address_3.isNone ∧ b.address4Type = false then
        some { b with payloadType := t.type, payload := some p, address_1 := none, address_2 := none,
                      address_3 := none, address_4 := none } else none
    | none => none
  -- /repo/src/frames/data_frame/builder.rs:205-220
  | .payload_amsdu p =>
    if b.category = some .QoS ∧ b.payloadType = .Unit ∧ b.address_1.isNone ∧ b.address_2.isNone ∧
        b.address_3.isNone ∧ b.address4Type = false then
      some { b with payloadType := .AMSDU, payload := some p, address_1 := none, address_2 := none,
                    address_3 := none, address_4 := none } else none
  -- /repo/src/frames/data_frame/builder.rs:221-247: for any `DS` and `Category`
  | .receiver_address a => if b.address_1.isNone then some { b with address_1 := some a } else none
  -- /repo/src/frames/data_frame/builder.rs:248-274
  | .transmitter_address a => if b.address_2.isNone then some { b with address_2 := some a } else none
  | .destination_address a =>
    if b.category.isNone then none else
    match b.ds with
    -- /repo/src/frames/data_frame/builder.rs:275-316
    | .NeitherToNorFromDS => if b.address4Type then none else some { b with address_1 := some a }
    -- /repo/src/frames/data_frame/builder.rs:364-396: the result has `DS = NeitherToNorFromDS`
    | .FromDS =>
      if b.address4Type then none
      else some { b with ds := .NeitherToNorFromDS, address_1 := some a }
    -- /repo/src/frames/data_frame/builder.rs:499-516
    | .ToDS =>
      if b.payloadType = .Bytes ∧ b.address4Type = false then some { b with address_3 := some a } else none
    -- /repo/src/frames/data_frame/builder.rs:576-617
    | .ToAndFromDS => if b.payloadType = .Bytes then some { b with address_3 := some a } else none
    | .Undecided => none
  | .source_address a =>
    if b.category.isNone then none else
    match b.ds with
    -- /repo/src/frames/data_frame/builder.rs:317-339
    | .NeitherToNorFromDS => if b.address4Type then none else some { b with address_2 := some a }
    -- /repo/src/frames/data_frame/builder.rs:397-414
    | .FromDS =>
      if b.payloadType = .Bytes ∧ b.address4Type = false then some { b with address_3 := some a } else none
    -- /repo/src/frames/data_frame/builder.rs:474-498
    | .ToDS => if b.address4Type then none else some { b with address_2 := some a }
    -- /repo/src/frames/data_frame/builder.rs:618-641
    | .ToAndFromDS =>
      if b.payloadType = .Bytes then some { b with address_4 := some a, address4Type := true } else none
    | .Undecided => none
  | .bssid a =>
    if b.category.isNone then none else
    match b.ds with
    -- /repo/src/frames/data_frame/builder.rs:340-363
    | .NeitherToNorFromDS => if b.address4Type then none else some { b with address_3 := some a }
    | .FromDS =>
      if b.address4Type then none else
      match b.payloadType with
      -- /repo/src/frames/data_frame/builder.rs:415-430
      | .Bytes => some { b with address_2 := some a }
      -- /repo/src/frames/data_frame/builder.rs:431-473
      | .AMSDU => some { b with address_2 := some a, address_3 := some a }
      | _ => none
    | .ToDS =>
      if b.address4Type then none else
      match b.payloadType with
      -- /repo/src/frames/data_frame/builder.rs:517-532
      | .Bytes => some { b with address_1 := some a }
      -- /repo/src/frames/data_frame/builder.rs:533-575
      | .AMSDU => some { b with address_1 := some a, address_3 := some a }
      | _ => none
    | .ToAndFromDS =>
      match b.payloadType with
      -- /repo/src/frames/data_frame/builder.rs:642-685
      | .AMSDU => some { b with address_3 := some a, address_4 := some a, address4Type := true }
      | _ => none
    | .Undecided => none
  -- /repo/src/frames/data_frame/builder.rs:686-713
  | .more_fragments => some { b with fcf_flags := b.fcf_flags.with_more_fragments true }
  | .retry => some { b with fcf_flags := b.fcf_flags.with_retry true }
  | .power_management => some { b with fcf_flags := b.fcf_flags.with_pwr_mgmt true }
  | .more_data => some { b with fcf_flags := b.fcf_flags.with_more_data true }
  | .«protected» => some { b with fcf_flags := b.fcf_flags.with_protected_ true }
  | .order => some { b with fcf_flags := b.fcf_flags.with_order true }

/-- A sequence of method calls. -/
def run : DataFrameBuilder π → List (BuilderOp π) → Option (DataFrameBuilder π)
  | b, [] => some b
  | b, op :: ops => (b.apply op).bind fun b => b.run ops

/-- `build`, /repo/src/frames/data_frame/builder.rs:714-746 when `Address4` is `MACAddress`, :747-770 when
it is `()`. -/
def build (b : DataFrameBuilder π) : Option (DataFrame π) :=
  match b.category, b.address_1, b.address_2, b.address_3 with
  | some c, some address_1, some address_2, some address_3 =>
    some
      { header :=
          { subtype := .fromBits (c.UPPER_TWO_BITS <<< 2)
            fcf_flags := b.fcf_flags
            duration := 0
            address_1, address_2, address_3
            sequence_control := ⟨0⟩
            address_4 := if b.address4Type then b.address_4 else none
            qos := none
            ht_control := none }
        payload := b.payload }
  | _, _, _, _ => none

end DataFrameBuilder

/-- A program which uses the builder: method calls, then `build`. -/
def buildDataFrame {π : Type} (ops : List (BuilderOp π)) : Option (DataFrame π) :=
  (DataFrameBuilder.new.run ops).bind DataFrameBuilder.build

end Verif
