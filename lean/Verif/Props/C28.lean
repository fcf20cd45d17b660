import Verif.Model.Frames.Data
/-!
# C28: address roles of data frames

The roles are specified by the table of the standard, "Address field contents" (table 9-30 in IEEE
802.11-2020), as a function from the two DS flags and "A-MSDU or not" to a field.
-/
namespace Verif

namespace Spec

inductive AddressField where
  | one | two | three | four
  deriving DecidableEq, Repr

/-- Rows: destination, source and BSSID fields of a data frame which carries an MSDU (`amsdu` false)
or an A-MSDU.  In an A-MSDU the fields of the destination or source are given to the BSSID. -/
def addressTable (to_ds from_ds amsdu : Bool) :
    Option AddressField × Option AddressField × List AddressField :=
  match to_ds, from_ds, amsdu with
  | false, false, _ => (some .one, some .two, [.three])
  | false, true, false => (some .one, some .three, [.two])
  | false, true, true => (some .one, none, [.two, .three])
  | true, false, false => (some .three, some .two, [.one])
  | true, false, true => (none, some .two, [.one, .three])
  | true, true, false => (some .three, some .four, [])
  | true, true, true => (none, none, [.three, .four])

def field (h : DataFrameHeader) : AddressField → Option Mac
  | .one => some h.address_1
  | .two => some h.address_2
  | .three => some h.address_3
  | .four => h.address_4

/-- Replacing one address field, if it is there. -/
def put (h : DataFrameHeader) (a : Mac) : AddressField → Option DataFrameHeader
  | .one => some { h with address_1 := a }
  | .two => some { h with address_2 := a }
  | .three => some { h with address_3 := a }
  | .four => if h.address_4.isSome then some { h with address_4 := some a } else none

/-- A frame carries an A-MSDU when bit 7 of its QoS control field is set, if it carries data at all. -/
def CarriesAmsdu (h : DataFrameHeader) : Prop :=
  h.subtype.hasPayload = true ∧ ∃ q ∈ h.qos, q.val.head?.any (·.getLsbD 7) = true

def rolesOf (h : DataFrameHeader) : Option AddressField × Option AddressField × List AddressField :=
  addressTable h.fcf_flags.to_ds h.fcf_flags.from_ds h.isAmsdu

end Spec

open Spec

theorem c28_amsdu (h : DataFrameHeader) : h.isAmsdu = true ↔ CarriesAmsdu h := by
  simp only [DataFrameHeader.isAmsdu, CarriesAmsdu]
  cases h.qos with
  | none => simp
  | some q =>
    obtain ⟨q, hq⟩ := q
    cases q with
    | nil => simp at hq
    | cons x r => simp [and_comm]

/-- Receiver and transmitter are the first two addresses. -/
theorem c28_receiver_transmitter (h : DataFrameHeader) :
    some h.receiverAddress = field h .one ∧ some h.transmitterAddress = field h .two := ⟨rfl, rfl⟩

theorem c28_destination (h : DataFrameHeader) :
    h.destinationAddress = (rolesOf h).1.bind (field h) := by
  simp only [DataFrameHeader.destinationAddress, rolesOf]
  cases h.fcf_flags.to_ds <;> cases h.fcf_flags.from_ds <;> cases h.isAmsdu <;> rfl

theorem c28_source (h : DataFrameHeader) : h.sourceAddress = (rolesOf h).2.1.bind (field h) := by
  simp only [DataFrameHeader.sourceAddress, rolesOf]
  cases h.fcf_flags.to_ds <;> cases h.fcf_flags.from_ds <;> cases h.isAmsdu <;> rfl

/-- The BSSID, unless both flags are set, is the first of the fields the table gives it. -/
theorem c28_bssid_partial (h : DataFrameHeader) (hb : ¬(h.fcf_flags.to_ds = true ∧ h.fcf_flags.from_ds = true)) :
    h.bssid = (rolesOf h).2.2.head?.bind (field h) := by
  simp only [DataFrameHeader.bssid, rolesOf]
  revert hb
  cases h.fcf_flags.to_ds <;> cases h.fcf_flags.from_ds <;> cases h.isAmsdu <;> simp [addressTable, field]

/-- Violation: with both flags set the transmitter address is reported as BSSID, though the frame has
none, or has it in the third and fourth address. -/
theorem c28_bssid_both (h : DataFrameHeader) (hb : h.fcf_flags.to_ds = true ∧ h.fcf_flags.from_ds = true) :
    h.bssid = some h.address_2 ∧ .two ∉ (rolesOf h).2.2 := by
  simp only [DataFrameHeader.bssid, rolesOf, hb.1, hb.2]
  cases h.isAmsdu <;> simp [addressTable]

/-! ## The mutable accessors -/

/-- Assigning the destination replaces the field of that role and nothing else, whenever the shared
accessor returns one. -/
theorem c28_set_destination (h : DataFrameHeader) (a : Mac) :
    h.setDestinationAddress a = (rolesOf h).1.bind (put h a) ∧
    (h.setDestinationAddress a).isSome = h.destinationAddress.isSome := by
  simp only [DataFrameHeader.setDestinationAddress, DataFrameHeader.destinationAddress, rolesOf]
  cases h.fcf_flags.to_ds <;> cases h.fcf_flags.from_ds <;> cases h.isAmsdu <;> exact ⟨rfl, rfl⟩

theorem c28_set_source (h : DataFrameHeader) (a : Mac) :
    h.setSourceAddress a = (rolesOf h).2.1.bind (put h a) ∧
    (h.setSourceAddress a).isSome = h.sourceAddress.isSome := by
  simp only [DataFrameHeader.setSourceAddress, DataFrameHeader.sourceAddress, rolesOf]
  cases h.fcf_flags.to_ds <;> cases h.fcf_flags.from_ds <;> cases h.isAmsdu <;>
    first | exact ⟨rfl, rfl⟩ | (cases hh : h.address_4 <;> simp [addressTable, put, hh])

/-- Replacing an address leaves the roles as they are. -/
theorem c28_put_roles (h h' : DataFrameHeader) (a : Mac) (f : AddressField) (hp : put h a f = some h') :
    rolesOf h' = rolesOf h ∧ field h' f = some a ∧ ∀ g, g ≠ f → field h' g = field h g := by
  cases f <;> simp only [put] at hp
  all_goals first
    | (split at hp <;> simp only [Option.some.injEq, reduceCtorEq] at hp)
    | simp only [Option.some.injEq] at hp
  all_goals
    subst hp
    refine ⟨rfl, rfl, ?_⟩
    intro g hg
    cases g <;> first | rfl | exact absurd rfl hg

/-- So the address set is the address read. -/
theorem c28_set_get_destination (h h' : DataFrameHeader) (a : Mac) (hs : h.setDestinationAddress a = some h') :
    h'.destinationAddress = some a := by
  rw [(c28_set_destination h a).1] at hs
  obtain ⟨f, hf, hp⟩ := Option.bind_eq_some_iff.1 hs
  obtain ⟨h1, h2, _⟩ := c28_put_roles h h' a f hp
  rw [c28_destination, h1, hf]
  exact h2

theorem c28_set_get_source (h h' : DataFrameHeader) (a : Mac) (hs : h.setSourceAddress a = some h') :
    h'.sourceAddress = some a := by
  rw [(c28_set_source h a).1] at hs
  obtain ⟨f, hf, hp⟩ := Option.bind_eq_some_iff.1 hs
  obtain ⟨h1, h2, _⟩ := c28_put_roles h h' a f hp
  rw [c28_source, h1, hf]
  exact h2

/-- For the BSSID this holds when the frame is not an A-MSDU, or has neither flag. -/
theorem c28_set_get_bssid_partial (h h' : DataFrameHeader) (a : Mac)
    (hm : h.isAmsdu = false ∨ (h.fcf_flags.to_ds = false ∧ h.fcf_flags.from_ds = false))
    (hs : h.setBssid a = some h') : h'.bssid = some a := by
  have hcase : (h.fcf_flags.to_ds || h.fcf_flags.from_ds) = false ∨ h.isAmsdu = false := by
    rcases hm with h | ⟨h1, h2⟩
    · exact Or.inr h
    · left; rw [h1, h2]; rfl
  simp only [DataFrameHeader.setBssid] at hs
  cases h1 : h.fcf_flags.to_ds <;> cases h2 : h.fcf_flags.from_ds <;> cases h3 : h.isAmsdu <;>
    simp [h1, h2, h3] at hs hcase <;> subst hs <;> simp [DataFrameHeader.bssid, h1, h2]

/-- Violation: in an A-MSDU with one flag or both, the BSSID set is written to the third address, while
the first or second is read; so what is read is what was there before. -/
theorem c28_set_get_bssid_wrong (h h' : DataFrameHeader) (a : Mac) (hm : h.isAmsdu = true)
    (hf : h.fcf_flags.to_ds = true ∨ h.fcf_flags.from_ds = true) (hs : h.setBssid a = some h') :
    h'.bssid = h.bssid ∧ h'.address_3 = a := by
  simp only [DataFrameHeader.setBssid, hm, Bool.or_true, if_true, Option.some.injEq] at hs
  subst hs
  refine ⟨?_, rfl⟩
  cases h1 : h.fcf_flags.to_ds <;> cases h2 : h.fcf_flags.from_ds <;>
    simp [h1, h2] at hf <;> simp [DataFrameHeader.bssid, h1, h2]

/-- Concrete cases: a frame from the distribution system, and an A-MSDU to it. -/
example : let m (k : Byte) : Mac := ⟨[k, k, k, k, k, k], rfl⟩
    let h : DataFrameHeader := ⟨.QoSData, ⟨2⟩, 0, m 1, m 2, m 3, ⟨0⟩, none, some ⟨[0, 0], rfl⟩, none⟩
    let g : DataFrameHeader := ⟨.QoSData, ⟨1⟩, 0, m 1, m 2, m 3, ⟨0⟩, none, some ⟨[0x80, 0], rfl⟩, none⟩
    (h.destinationAddress, h.sourceAddress, h.bssid) = (some (m 1), some (m 3), some (m 2)) ∧
    (g.destinationAddress, g.sourceAddress, g.bssid) = (none, some (m 2), some (m 1)) ∧
    g.isAmsdu = true ∧ ((g.setBssid (m 9)).map (·.bssid)) = some (some (m 1)) := by
  decide +kernel

end Verif
