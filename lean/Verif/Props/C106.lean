import Verif.Props.C101
/-!
# C106: mesh stations find their mesh

Stations belong to the same mesh if they have the same mesh profile (14.2.3): the mesh ID (9.4.2.98) and the five identifiers
at the beginning of the mesh configuration element (9.4.2.97).  A station looks for neighbours with its own profile that accept
more peerings, and takes the best: one with a connection to a mesh gate before others, and then the one with the fewest
peerings.  The program is not in the crate; it is written here with the functions of the crate.
-/
namespace Verif

namespace Spec

/-- What a neighbour says about its mesh. -/
structure MeshNeighbour where
  id : Bytes
  methods : List Nat
  gate : Bool
  peerings : Nat
  room : Bool
  deriving DecidableEq, Repr

/-- The content of the first mesh ID element with a proper content. -/
def meshNameIn (proper : Bytes → Bool) (raws : List RawElement) : Option Bytes :=
  raws.findSome? fun r => if r.tlv_type.toNat = 114 ∧ proper r.slice = true then some r.slice else none

/-- 9.4.2.97 in octets: the formation info is octet 5, with the gate in bit 0 and the number of peerings in bits
1 to 6; bit 0 of octet 6 says that more peerings are accepted. -/
def neighbourFrom (proper : Bytes → Bool) (raws : List RawElement) : Option MeshNeighbour :=
  (meshNameIn proper raws).bind fun id => (saidIn 113 7 raws).map fun c =>
    ⟨id, [octetAt c 0, octetAt c 1, octetAt c 2, octetAt c 3, octetAt c 4], octetAt c 5 % 2 == 1, octetAt c 5 / 2 % 64,
      octetAt c 6 % 2 == 1⟩

/-- The standard: a mesh ID is up to 32 octets, whatever they are. -/
def standardNeighbour (raws : List RawElement) : Option MeshNeighbour :=
  neighbourFrom (fun p => decide (p.length ≤ 32)) raws

/-- Is this a neighbour to peer with? -/
def MeshNeighbour.Fits (id : Bytes) (methods : List Nat) (n : MeshNeighbour) : Prop :=
  n.id = id ∧ n.methods = methods ∧ n.room = true

instance (id : Bytes) (methods : List Nat) (n : MeshNeighbour) : Decidable (n.Fits id methods) := by
  unfold MeshNeighbour.Fits; infer_instance

/-- Gate and peerings of a neighbour to peer with. -/
def offerOf (id : Bytes) (methods : List Nat) (n : Option MeshNeighbour) : Option (Bool × Nat) :=
  n.bind fun n => if n.Fits id methods then some (n.gate, n.peerings) else none

/-- A better offer. -/
def BetterOffer (x y : Bool × Nat) : Prop := x.1 = true ∧ y.1 = false ∨ x.1 = y.1 ∧ x.2 < y.2

/-- One of the best of a list, and the first of these. -/
def BestOffer (l : List (Mac × Bool × Nat)) : Option (Mac × Bool × Nat) → Prop
  | none => l = []
  | some x => ∃ pre post, l = pre ++ x :: post ∧ (∀ y ∈ l, ¬ BetterOffer y.2 x.2) ∧ ∀ y ∈ pre, BetterOffer x.2 y.2

/-! ## The station, with the functions of the crate -/

/-- The identifiers as octets. -/
def methodsOf (c : MeshConfigurationElement) : List Nat :=
  [c.active_path_selection_protocol_identifier.intoBits.toNat, c.active_path_selection_metric_identifier.intoBits.toNat,
    c.congestion_control_mode_identifier.intoBits.toNat, c.syncronization_method_identifier.intoBits.toNat,
    c.authentication_protocol_identifier.intoBits.toNat]

/-- No identifier is `Unknown` with the code of a named one. -/
def MethodsCanonical (c : MeshConfigurationElement) : Prop :=
  c.active_path_selection_protocol_identifier.Canonical ∧ c.active_path_selection_metric_identifier.Canonical ∧
    c.congestion_control_mode_identifier.Canonical ∧ c.syncronization_method_identifier.Canonical ∧
    c.authentication_protocol_identifier.Canonical

/-- The same mesh? -/
def sameMesh (id : Str) (own : MeshConfigurationElement) (e : SSIDLikeElement) (c : MeshConfigurationElement) : Bool :=
  e.ssid == id &&
  c.active_path_selection_protocol_identifier == own.active_path_selection_protocol_identifier &&
  c.active_path_selection_metric_identifier == own.active_path_selection_metric_identifier &&
  c.congestion_control_mode_identifier == own.congestion_control_mode_identifier &&
  c.syncronization_method_identifier == own.syncronization_method_identifier &&
  c.authentication_protocol_identifier == own.authentication_protocol_identifier

variable [ScrollRule] [Crc32]

omit [Crc32] in
/-- The mesh IDs that the crate reads: UTF-8, and under the strict rule of `scroll` not empty. -/
def meshIdRead (p : Bytes) : Bool := decide (slack ≤ p.length) && decide (p.length ≤ 32) && utf8Valid p

omit [Crc32] in
/-- The decision about the elements of a frame. -/
def meshOffer (id : Str) (own : MeshConfigurationElement) (els : Bytes) : Res (Option (Bool × Nat)) := do
  match ← getFirstElement els meshIdKind, ← getFirstElement els meshConfigurationKind with
  | some e, some c =>
    pure (if sameMesh id own e c && c.mesh_capability.accept_additional_mesh_peerings then
      some (c.mesh_formation_info.connected_to_mesh_gate, c.mesh_formation_info.num_peerings.toNat) else none)
  | _, _ => pure none

/-- About a frame: a beacon or a probe response. -/
def heardOffer (id : Str) (own : MeshConfigurationElement) (fcs : Bool) (frame : Bytes) :
    Res (Option (Mac × Bool × Nat)) :=
  match matchFrames frame (if fcs then some true else none)
    [armOf MgmtKind.Beacon.frame (readMgmtFrame readBeaconLike) fun r => (r.1.bssid, r.2.elements),
      armOf MgmtKind.ProbeResponse.frame (readMgmtFrame readBeaconLike) fun r => (r.1.bssid, r.2.elements)] with
  | .panic => .panic
  | .err _ => .ok none
  | .ok (_, station, els) => do
    let o ← meshOffer id own els
    pure (o.map fun o => (station, o))

omit [ScrollRule] [Crc32] in
/-- The better of two, the first if neither is. -/
def preferOffer (x : Mac × Bool × Nat) : Option (Mac × Bool × Nat) → Mac × Bool × Nat
  | none => x
  | some y => if (y.2.1 && !x.2.1) || (y.2.1 == x.2.1 && decide (y.2.2 < x.2.2)) then y else x

/-- The choice among what is heard. -/
def choosePeer (id : Str) (own : MeshConfigurationElement) (fcs : Bool) : List Bytes → Res (Option (Mac × Bool × Nat))
  | [] => .ok none
  | f :: fs => do
    match ← heardOffer id own fcs f with
    | none => choosePeer id own fcs fs
    | some x => do
      let best ← choosePeer id own fcs fs
      pure (some (preferOffer x best))

omit [ScrollRule] [Crc32] in
/-- The elements of a station. -/
def Surroundings.elements (a : Surroundings) (name : Str) : List RawElement :=
  a.before.map Prod.snd ++ ⟨0, name.bytes⟩ :: a.after.map Prod.snd

omit [ScrollRule] [Crc32] in
/-- The offers on the air, by the standard. -/
def offersOn (id : Bytes) (methods : List Nat) : List OnAir → List (Mac × Bool × Nat)
  | [] => []
  | .network _ a name :: l => match offerOf id methods (standardNeighbour (a.elements name)) with
    | none => offersOn id methods l
    | some o => (a.header.bssid, o) :: offersOn id methods l
  | .other _ :: l => offersOn id methods l

omit [ScrollRule] [Crc32] in
/-- The mesh configuration element in octets. -/
def meshOctets (c : MeshConfigurationElement) : Bytes :=
  [c.active_path_selection_protocol_identifier.intoBits, c.active_path_selection_metric_identifier.intoBits,
    c.congestion_control_mode_identifier.intoBits, c.syncronization_method_identifier.intoBits,
    c.authentication_protocol_identifier.intoBits, c.mesh_formation_info.bits, c.mesh_capability.bits]

omit [ScrollRule] [Crc32] in
/-- A mesh station has the two elements after the SSID, which is empty. -/
def meshStation (h : ManagementFrameHeader) (b : BeaconLikeBody Unit) (id : Str) (c : MeshConfigurationElement) :
    Surroundings :=
  ⟨h, b, [], [(.typed (meshIdElem ⟨id⟩), ⟨114, id.bytes⟩), (.typed (meshConfigurationElem c), ⟨113, meshOctets c⟩)]⟩

omit [Crc32] in
/-- Mesh IDs are as the crate reads them; other SSIDs may be empty, as they are in a mesh, if another element follows; and
other frames are no beacons or probe responses, and have four bytes where a check sequence is expected. -/
def OnAir.MeshFine (fcs : Bool) : OnAir → Prop
  | .network _ a name => a.Fine ∧ (a.after = [] → slack ≤ name.bytes.length) ∧ name.bytes.length ≤ 32 ∧
    ∀ p ∈ a.before ++ a.after, p.2.tlv_type = 114 → p.2.slice.length ≤ 32 → meshIdRead p.2.slice = true
  | .other f => ¬ IsKind .Beacon f ∧ ¬ IsKind .ProbeResponse f ∧ (fcs = true → 4 ≤ f.length)

end Spec

open Spec

/-! ## Octets and fields -/

variable [ScrollRule]

private theorem mesh_safe (p : Bytes) : readMeshConfiguration p ≠ .panic := by
  intro h
  by_cases hp : p.length < 7
  · obtain ⟨e, he⟩ := c12_mesh_configuration.short p hp
    rw [he] at h; cases h
  · obtain ⟨a, r, hv, rfl⟩ := c12_mesh_configuration.onto p (by omega)
    rw [c12_mesh_configuration.read a r hv] at h; cases h

private theorem mesh_parsed (p : Bytes) : parsed meshConfigurationKind p =
    if 7 ≤ p.length then some ⟨.fromBits (p.getD 0 0), .fromBits (p.getD 1 0), .fromBits (p.getD 2 0),
      .fromBits (p.getD 3 0), .fromBits (p.getD 4 0), ⟨p.getD 5 0⟩, ⟨p.getD 6 0⟩⟩ else none := by
  have hsl := slack_le
  by_cases hp : 7 ≤ p.length
  · obtain ⟨a, r, hv, rfl⟩ := c12_mesh_configuration.onto p hp
    rw [if_pos hp, parsed, if_neg (by omega)]
    simp only [meshConfigurationKind, c12_mesh_configuration.read a r hv]
    obtain ⟨a1, a2, a3, a4, a5, ⟨a6⟩, ⟨a7⟩⟩ := a
    obtain ⟨h1, h2, h3, h4, h5⟩ := hv
    simp only at h1 h2 h3 h4 h5
    simp [MeshConfigurationActivePathSelectionProtocolIdentifier.fromBits_intoBits _ h1,
      MeshConfigurationActivePathSelectionMetricIdentifier.fromBits_intoBits _ h2,
      MeshConfigurationCongestionControlModeIdentifier.fromBits_intoBits _ h3,
      MeshConfigurationSynchronizationMethodIdentifier.fromBits_intoBits _ h4,
      MeshConfigurationAuthenticationProtocolIdentifier.fromBits_intoBits _ h5]
  · rw [if_neg hp, parsed]
    obtain ⟨e, he⟩ := c12_mesh_configuration.short p (by omega)
    simp only [meshConfigurationKind, he]
    split <;> rfl

omit [ScrollRule] in
private theorem id_safe (p : Bytes) : readSSID p ≠ .panic := by
  intro h
  by_cases hp : p.length ≤ 32 ∧ IsUtf8 p
  · rw [(c10_parse p ⟨⟨p, (utf8Valid_iff _).2 hp.2⟩⟩ p.length).2 ⟨hp.1, hp.2, rfl, rfl⟩] at h; cases h
  · obtain ⟨x, hx⟩ := c10_parse_error p hp
    rw [hx] at h; cases h

private theorem id_parsed (p : Bytes) :
    (parsed meshIdKind p).map (fun e => e.ssid.bytes) = if meshIdRead p = true then some p else none := by
  rw [parsed, meshIdRead]
  by_cases hl : p.length < slack
  · rw [if_pos hl, if_neg (by simp; omega)]; rfl
  rw [if_neg hl]
  simp only [meshIdKind]
  by_cases hp : p.length ≤ 32 ∧ IsUtf8 p
  · rw [(c10_parse p ⟨⟨p, (utf8Valid_iff _).2 hp.2⟩⟩ p.length).2 ⟨hp.1, hp.2, rfl, rfl⟩,
      if_pos (by simp [(utf8Valid_iff _).2 hp.2, hp.1]; omega)]
    rfl
  · obtain ⟨x, hx⟩ := c10_parse_error p hp
    rw [hx, if_neg ?_]
    · rfl
    · intro h
      simp only [Bool.and_eq_true, decide_eq_true_eq] at h
      exact hp ⟨h.1.2, (utf8Valid_iff _).1 h.2⟩

private theorem first_id {bytes : Bytes} {raws : List RawElement} (h : ElementsOf bytes raws) :
    ∃ o, getFirstElement bytes meshIdKind = .ok o ∧ o.map (fun e => e.ssid.bytes) = meshNameIn meshIdRead raws := by
  refine ⟨_, getFirst_eq h meshIdKind (by simp [meshIdKind]) id_safe, ?_⟩
  rw [meshNameIn]
  clear h
  induction raws with
  | nil => rfl
  | cons r l ih =>
    rw [List.findSome?_cons, List.findSome?_cons]
    have hk : contents meshIdKind.id r = if r.tlv_type = 114 then some r.slice else none := rfl
    have hp := id_parsed r.slice
    rw [hk]
    by_cases ht : r.tlv_type = 114
    · rw [if_pos ht, Option.bind_some]
      by_cases hr : meshIdRead r.slice = true
      · rw [if_pos hr] at hp
        rw [if_pos ⟨by rw [ht]; rfl, hr⟩]
        obtain ⟨e, he, hb⟩ := Option.map_eq_some_iff.1 hp
        rw [he]
        simp [hb]
      · rw [if_neg hr] at hp
        rw [if_neg (fun h => hr h.2), Option.map_eq_none_iff.1 hp]
        exact ih
    · rw [if_neg ht, if_neg (fun h => ht (BitVec.eq_of_toNat_eq h.1)), Option.bind_none]
      exact ih

omit [ScrollRule] in
private theorem bit_zero (b : Byte) : getBit b 0 = (b.toNat % 2 == 1) := by
  rw [getBit, BitVec.getLsbD, Nat.testBit_eq_decide_div_mod_eq]
  simp only [Nat.pow_zero, Nat.div_one]
  rfl

omit [ScrollRule] in
private theorem peerings_of (b : Byte) : (MeshFormationInfo.mk b).num_peerings.toNat = b.toNat / 2 % 64 := by
  revert b; decide +kernel

omit [ScrollRule] in
private theorem same_iff (id : Str) (own : MeshConfigurationElement) (hc : MethodsCanonical own) (e : SSIDLikeElement)
    (p : Bytes) : sameMesh id own e ⟨.fromBits (p.getD 0 0), .fromBits (p.getD 1 0), .fromBits (p.getD 2 0),
      .fromBits (p.getD 3 0), .fromBits (p.getD 4 0), ⟨p.getD 5 0⟩, ⟨p.getD 6 0⟩⟩ = true ↔
    e.ssid.bytes = id.bytes ∧ [octetAt p 0, octetAt p 1, octetAt p 2, octetAt p 3, octetAt p 4] = methodsOf own := by
  obtain ⟨h1, h2, h3, h4, h5⟩ := hc
  have hs : e.ssid = id ↔ e.ssid.bytes = id.bytes := by
    cases e with | mk s => cases s; cases id; simp
  have n (a b : Byte) : a.toNat = b.toNat ↔ a = b := ⟨BitVec.eq_of_toNat_eq, fun h => by rw [h]⟩
  have e1 (b : Byte) : MeshConfigurationActivePathSelectionProtocolIdentifier.fromBits b =
      own.active_path_selection_protocol_identifier ↔ b = own.active_path_selection_protocol_identifier.intoBits :=
    ⟨fun h => by rw [← h, MeshConfigurationActivePathSelectionProtocolIdentifier.intoBits_fromBits],
      fun h => by rw [h, MeshConfigurationActivePathSelectionProtocolIdentifier.fromBits_intoBits _ h1]⟩
  have e2 (b : Byte) : MeshConfigurationActivePathSelectionMetricIdentifier.fromBits b =
      own.active_path_selection_metric_identifier ↔ b = own.active_path_selection_metric_identifier.intoBits :=
    ⟨fun h => by rw [← h, MeshConfigurationActivePathSelectionMetricIdentifier.intoBits_fromBits],
      fun h => by rw [h, MeshConfigurationActivePathSelectionMetricIdentifier.fromBits_intoBits _ h2]⟩
  have e3 (b : Byte) : MeshConfigurationCongestionControlModeIdentifier.fromBits b =
      own.congestion_control_mode_identifier ↔ b = own.congestion_control_mode_identifier.intoBits :=
    ⟨fun h => by rw [← h, MeshConfigurationCongestionControlModeIdentifier.intoBits_fromBits],
      fun h => by rw [h, MeshConfigurationCongestionControlModeIdentifier.fromBits_intoBits _ h3]⟩
  have e4 (b : Byte) : MeshConfigurationSynchronizationMethodIdentifier.fromBits b =
      own.syncronization_method_identifier ↔ b = own.syncronization_method_identifier.intoBits :=
    ⟨fun h => by rw [← h, MeshConfigurationSynchronizationMethodIdentifier.intoBits_fromBits],
      fun h => by rw [h, MeshConfigurationSynchronizationMethodIdentifier.fromBits_intoBits _ h4]⟩
  have e5 (b : Byte) : MeshConfigurationAuthenticationProtocolIdentifier.fromBits b =
      own.authentication_protocol_identifier ↔ b = own.authentication_protocol_identifier.intoBits :=
    ⟨fun h => by rw [← h, MeshConfigurationAuthenticationProtocolIdentifier.intoBits_fromBits],
      fun h => by rw [h, MeshConfigurationAuthenticationProtocolIdentifier.fromBits_intoBits _ h5]⟩
  simp only [sameMesh, Bool.and_eq_true, beq_iff_eq, hs, e1, e2, e3, e4, e5, methodsOf, octetAt, List.cons.injEq, n, and_true,
    and_assoc]

/-! ## The property -/

/-- Whatever elements there are, a station that compares them with the fields of the crate has exactly the offer that is in
them, where mesh IDs count if the crate reads them. -/
theorem c106_exact (id : Str) (own : MeshConfigurationElement) (hc : MethodsCanonical own) (els : Bytes)
    (raws : List RawElement) (h : ElementsOf els raws) :
    meshOffer id own els = .ok (offerOf id.bytes (methodsOf own) (neighbourFrom meshIdRead raws)) := by
  obtain ⟨o, h1, h2⟩ := first_id h
  have h3 := getFirst_said h 113 meshConfigurationKind rfl mesh_safe 7 _ mesh_parsed
  simp only [BitVec.reduceToNat] at h3
  simp only [meshOffer, h1, h3, Res.ok_bind, neighbourFrom, ← h2]
  cases o with
  | none => rfl
  | some e =>
    cases saidIn 113 7 raws with
    | none => rfl
    | some p =>
      simp only [Option.map_some, Option.bind_some, pure, offerOf, Res.ok.injEq, MeshNeighbour.Fits]
      have hs := same_iff id own hc e p
      have hroom : (MeshCapability.mk (p.getD 6 0)).accept_additional_mesh_peerings = (octetAt p 6 % 2 == 1) :=
        bit_zero _
      have hgate : (MeshFormationInfo.mk (p.getD 5 0)).connected_to_mesh_gate = (octetAt p 5 % 2 == 1) := bit_zero _
      have hpeer : (MeshFormationInfo.mk (p.getD 5 0)).num_peerings.toNat = octetAt p 5 / 2 % 64 := peerings_of _
      simp only [Bool.and_eq_true, hs, hroom, hgate, hpeer, and_assoc]

omit [ScrollRule] in
private theorem name_proper (f g : Bytes → Bool) (raws : List RawElement)
    (h : ∀ r ∈ raws, r.tlv_type = 114 → f r.slice = g r.slice) : meshNameIn f raws = meshNameIn g raws := by
  induction raws with
  | nil => rfl
  | cons r l ih =>
    have ih := ih fun r hr => h r (List.mem_cons_of_mem _ hr)
    simp only [meshNameIn, List.findSome?_cons] at ih ⊢
    rw [ih]
    by_cases ht : r.tlv_type.toNat = 114
    · rw [h r (by simp) (BitVec.eq_of_toNat_eq ht)]
    · rw [if_neg (fun h => ht h.1), if_neg (fun h => ht h.1)]

private theorem neighbour_standard (raws : List RawElement)
    (h : ∀ r ∈ raws, r.tlv_type = 114 → r.slice.length ≤ 32 → meshIdRead r.slice = true) :
    neighbourFrom meshIdRead raws = standardNeighbour raws := by
  rw [standardNeighbour, neighbourFrom, neighbourFrom, name_proper meshIdRead (fun p => decide (p.length ≤ 32)) raws]
  intro r hr ht
  by_cases hl : r.slice.length ≤ 32
  · rw [h r hr ht hl]; simp [hl]
  · simp [meshIdRead, hl]

/-- If all mesh IDs are UTF-8 and, under the strict rule, not empty, this is what the standard says.  Partial: see
`c106_octets_lost`. -/
theorem c106_offer_partial (id : Str) (own : MeshConfigurationElement) (hc : MethodsCanonical own) (els : Bytes)
    (raws : List RawElement) (h : ElementsOf els raws)
    (hid : ∀ r ∈ raws, r.tlv_type = 114 → r.slice.length ≤ 32 → meshIdRead r.slice = true) :
    meshOffer id own els = .ok (offerOf id.bytes (methodsOf own) (standardNeighbour raws)) := by
  rw [c106_exact id own hc els raws h, neighbour_standard raws hid]

variable [Crc32]

/-- The offer of a station that is heard. -/
private theorem heard_exact (id : Str) (own : MeshConfigurationElement) (hc : MethodsCanonical own) (resp : Bool)
    (a : Surroundings) (ha : a.Fine) (name : Str) (hne : a.after = [] → slack ≤ name.bytes.length)
    (hl : name.bytes.length ≤ 32) (fcs : Bool) :
    ∃ size, ∀ buf : Bytes, size ≤ buf.length → ∃ frame, announce resp a name fcs buf = .ok frame ∧
      heardOffer id own fcs frame = .ok ((offerOf id.bytes (methodsOf own)
        (neighbourFrom meshIdRead (a.elements name))).map fun o => (a.header.bssid, o)) := by
  have hn : SSIDLikeElement.new name = some ⟨name⟩ := (c10_new _ _).2 ⟨hl, rfl⟩
  obtain ⟨x, hx⟩ := announced_item name _ hn
  obtain ⟨size, hA⟩ := announce_arrives resp a ha _ _ x hx hne fcs
  refine ⟨size, fun buf hb => ?_⟩
  obtain ⟨frame, els, h1, ⟨j, h2⟩, h3⟩ := hA buf hb
  refine ⟨frame, by rw [announce, hn]; exact h1, ?_⟩
  simp only [heardOffer, h2]
  rw [c106_exact id own hc els _ h3]
  rfl

omit [Crc32] in
private theorem elements_fine (a : Surroundings) (name : Str)
    (h : ∀ p ∈ a.before ++ a.after, p.2.tlv_type = 114 → p.2.slice.length ≤ 32 → meshIdRead p.2.slice = true) :
    ∀ r ∈ a.elements name, r.tlv_type = 114 → r.slice.length ≤ 32 → meshIdRead r.slice = true := by
  intro r hr ht
  rcases List.mem_append.1 hr with hr | hr
  · obtain ⟨p, hp, rfl⟩ := List.mem_map.1 hr
    exact h p (by simp [hp]) ht
  · rcases List.mem_cons.1 hr with rfl | hr
    · exact absurd ht (show ¬ (0 : Byte) = 114 by decide)
    · obtain ⟨p, hp, rfl⟩ := List.mem_map.1 hr
      exact h p (by simp [hp]) ht

omit [ScrollRule] [Crc32] in
private theorem better_trans {x y z : Bool × Nat} (h1 : BetterOffer x y) (h2 : BetterOffer y z) : BetterOffer x z := by
  unfold BetterOffer at *
  rcases h1 with ⟨a, b⟩ | ⟨a, b⟩ <;> rcases h2 with ⟨c, d⟩ | ⟨c, d⟩
  · rw [b] at c; cases c
  · exact .inl ⟨a, c ▸ b⟩
  · exact .inl ⟨a.trans c, d⟩
  · exact .inr ⟨a.trans c, by omega⟩

omit [ScrollRule] [Crc32] in
private theorem better_asymm {x y : Bool × Nat} (h1 : BetterOffer x y) : ¬ BetterOffer y x := by
  intro h2
  unfold BetterOffer at *
  rcases h1 with ⟨a, b⟩ | ⟨a, b⟩ <;> rcases h2 with ⟨c, d⟩ | ⟨c, d⟩
  · rw [b] at c; cases c
  · rw [c, a] at b; cases b
  · rw [a, c] at d; cases d
  · omega

omit [ScrollRule] [Crc32] in
private theorem not_better_trans {x y z : Bool × Nat} (h1 : ¬ BetterOffer y x) (h2 : ¬ BetterOffer z y) :
    ¬ BetterOffer z x := by
  unfold BetterOffer at *
  obtain ⟨x1, x2⟩ := x; obtain ⟨y1, y2⟩ := y; obtain ⟨z1, z2⟩ := z
  simp only [not_or, not_and] at *
  cases x1 <;> cases y1 <;> cases z1 <;> simp at * <;> omega

omit [ScrollRule] [Crc32] in
/-- The better of the first and the best of the rest is the best of all. -/
private theorem prefer_best (x : Mac × Bool × Nat) (l : List (Mac × Bool × Nat)) (o : Option (Mac × Bool × Nat))
    (h : BestOffer l o) : BestOffer (x :: l) (some (preferOffer x o)) := by
  cases o with
  | none =>
    obtain rfl : l = [] := h
    refine ⟨[], [], rfl, ?_, by simp⟩
    intro y hy
    obtain rfl := List.mem_singleton.1 hy
    intro hb
    exact better_asymm hb hb
  | some b =>
    obtain ⟨pre, post, rfl, hbest, hpre⟩ := h
    have hiff : ((b.2.1 && !x.2.1) || (b.2.1 == x.2.1 && decide (b.2.2 < x.2.2))) = true ↔ BetterOffer b.2 x.2 := by
      unfold BetterOffer
      simp
    simp only [preferOffer]
    by_cases hb : BetterOffer b.2 x.2
    · rw [if_pos (hiff.2 hb)]
      refine ⟨x :: pre, post, rfl, ?_, ?_⟩
      · intro y hy
        rcases List.mem_cons.1 hy with rfl | hy
        · exact better_asymm hb
        · exact hbest y hy
      · intro y hy
        rcases List.mem_cons.1 hy with rfl | hy
        · exact hb
        · exact hpre y hy
    · rw [if_neg (fun h => hb (hiff.1 h))]
      refine ⟨[], _, rfl, ?_, by simp⟩
      intro y hy
      rcases List.mem_cons.1 hy with rfl | hy
      · intro h; exact better_asymm h h
      · exact not_better_trans hb (hbest y hy)

/-- Other frames say nothing. -/
private theorem heard_other (id : Str) (own : MeshConfigurationElement) (fcs : Bool) (f : Bytes)
    (h : (OnAir.other f).MeshFine fcs) : heardOffer id own fcs f = .ok none := by
  obtain ⟨h1, h2, h3⟩ := h
  obtain ⟨e, he⟩ := (match_mgmt readBeaconLike readBeaconLike_safe (fun r => (r.1.bssid, r.2.elements))
    [.Beacon, .ProbeResponse] (by decide) fcs f).2.1 (by
      intro k hk
      simp only [List.mem_cons, List.not_mem_nil, or_false] at hk
      rcases hk with rfl | rfl
      · exact h1
      · exact h2) h3
  simp only [List.map_cons, List.map_nil] at he
  simp only [heardOffer, he]

/-- Whatever is on the air, a station that listens chooses the best of the stations of its mesh that accept more peerings,
the first of them if there are several, and none exactly if there is none.  Partial: HT control must agree with the order bit;
mesh IDs are UTF-8 and, under the strict rule of `scroll`, neither they nor the last element of a frame are empty. -/
theorem c106_choice_partial (id : Str) (own : MeshConfigurationElement) (hc : MethodsCanonical own) (fcs : Bool)
    (l : List OnAir) (hl : ∀ x ∈ l, x.MeshFine fcs) :
    ∃ size, ∀ buf : Bytes, size ≤ buf.length → ∃ frames choice, transmit fcs buf l = .ok frames ∧
      choosePeer id own fcs frames = .ok choice ∧ BestOffer (offersOn id.bytes (methodsOf own) l) choice := by
  induction l with
  | nil => exact ⟨0, fun _ _ => ⟨[], none, rfl, rfl, rfl⟩⟩
  | cons x l ih =>
    obtain ⟨size, ih⟩ := ih fun y hy => hl y (by simp [hy])
    cases x with
    | other f =>
      have hf := heard_other id own fcs f (hl (.other f) (by simp))
      refine ⟨size, fun buf hb => ?_⟩
      obtain ⟨frames, o, h1, h2, h3⟩ := ih buf hb
      refine ⟨f :: frames, o, by simp only [transmit, h1, Res.ok_bind]; rfl, ?_, h3⟩
      simp only [choosePeer, hf, Res.ok_bind, h2]
    | network r a name =>
      obtain ⟨ha, hne, hle, hid⟩ := hl (.network r a name) (by simp)
      obtain ⟨size', hA⟩ := heard_exact id own hc r a ha name hne hle fcs
      refine ⟨max size size', fun buf hb => ?_⟩
      obtain ⟨frames, o, h1, h2, h3⟩ := ih buf (by omega)
      obtain ⟨f, h4, h5⟩ := hA buf (by omega)
      rw [neighbour_standard _ (elements_fine a name hid)] at h5
      cases ho : offerOf id.bytes (methodsOf own) (standardNeighbour (a.elements name)) with
      | none =>
        rw [ho] at h5
        refine ⟨f :: frames, o, by simp only [transmit, h1, h4, Res.ok_bind]; rfl, ?_, ?_⟩
        · simp only [choosePeer, h5, Option.map_none, Res.ok_bind, h2]
        · simp only [offersOn, ho]; exact h3
      | some y =>
        rw [ho] at h5
        refine ⟨f :: frames, some (preferOffer (a.header.bssid, y) o),
          by simp only [transmit, h1, h4, Res.ok_bind]; rfl, ?_, ?_⟩
        · simp only [choosePeer, h5, Option.map_some, Res.ok_bind, h2]
          rfl
        · simp only [offersOn, ho]
          exact prefer_best _ _ _ h3

omit [Crc32] in
private theorem station_fine (h : ManagementFrameHeader) (hh : HtConsistent h) (b : BeaconLikeBody Unit) (id : Str)
    (hid : slack ≤ id.bytes.length ∧ id.bytes.length ≤ 32) (c : MeshConfigurationElement) (hc : MethodsCanonical c) :
    (meshStation h b id c).Fine := by
  have hs := slack_le
  obtain ⟨h1, h2, h3, h4, h5⟩ := hc
  refine ⟨hh, ?_, ?_⟩
  · intro p hp
    simp only [meshStation, List.nil_append, List.mem_cons, List.not_mem_nil, or_false] at hp
    rcases hp with rfl | rfl
    · exact ⟨(c54_mesh_id id ⟨id⟩ ((c10_new _ _).2 ⟨hid.2, rfl⟩) hid.1).item, show ¬ (114 : Byte) = 0 by decide⟩
    · exact ⟨(c54_mesh_configuration c h1 h2 h3 h4 h5).item, show ¬ (113 : Byte) = 0 by decide⟩
  · intro p hp
    simp only [meshStation, List.getLast?_cons_cons, List.getLast?_singleton, Option.some.injEq] at hp
    subst hp
    simp only [meshOctets, List.length_cons, List.length_nil]
    omega

omit [Crc32] in
private theorem station_said (h : ManagementFrameHeader) (b : BeaconLikeBody Unit) (id : Str)
    (hid : slack ≤ id.bytes.length ∧ id.bytes.length ≤ 32) (c : MeshConfigurationElement) :
    neighbourFrom meshIdRead ((meshStation h b id c).elements ⟨[], rfl⟩) =
      some ⟨id.bytes, methodsOf c, c.mesh_formation_info.connected_to_mesh_gate,
        c.mesh_formation_info.num_peerings.toNat, c.mesh_capability.accept_additional_mesh_peerings⟩ := by
  have hr : meshIdRead id.bytes = true := by simp [meshIdRead, hid.1, hid.2, id.valid]
  have e1 : meshNameIn meshIdRead ((meshStation h b id c).elements ⟨[], rfl⟩) = some id.bytes := by
    simp [meshNameIn, meshStation, Surroundings.elements, hr]
  have e2 : saidIn 113 7 ((meshStation h b id c).elements ⟨[], rfl⟩) = some (meshOctets c) := by
    simp [saidIn, meshStation, Surroundings.elements, meshOctets]
  have g : c.mesh_formation_info.connected_to_mesh_gate = (c.mesh_formation_info.bits.toNat % 2 == 1) := bit_zero _
  have r : c.mesh_capability.accept_additional_mesh_peerings = (c.mesh_capability.bits.toNat % 2 == 1) := bit_zero _
  have n : c.mesh_formation_info.num_peerings.toNat = c.mesh_formation_info.bits.toNat / 2 % 64 :=
    peerings_of c.mesh_formation_info.bits
  rw [neighbourFrom, e1, e2, g, r, n]
  rfl

/-- Two mesh stations that use the crate find each other: what the one announces the other takes for an offer exactly if both
have the same mesh ID and the same identifiers and the first accepts peerings; and it is told about gate and peerings.
Partial as before. -/
theorem c106_stations_partial (resp : Bool) (h : ManagementFrameHeader) (hh : HtConsistent h) (b : BeaconLikeBody Unit)
    (id id' : Str) (hid : slack ≤ id.bytes.length ∧ id.bytes.length ≤ 32) (c c' : MeshConfigurationElement)
    (hc : MethodsCanonical c) (hc' : MethodsCanonical c') (fcs : Bool) :
    ∃ size, ∀ buf : Bytes, size ≤ buf.length → ∃ frame,
      announce resp (meshStation h b id c) ⟨[], rfl⟩ fcs buf = .ok frame ∧
      heardOffer id' c' fcs frame = .ok (if id.bytes = id'.bytes ∧ methodsOf c = methodsOf c' ∧
        c.mesh_capability.accept_additional_mesh_peerings = true then
          some (h.bssid, c.mesh_formation_info.connected_to_mesh_gate, c.mesh_formation_info.num_peerings.toNat)
        else none) := by
  obtain ⟨size, hA⟩ := heard_exact id' c' hc' resp (meshStation h b id c) (station_fine h hh b id hid c hc) ⟨[], rfl⟩
    (by simp [meshStation]) (by simp) fcs
  refine ⟨size, fun buf hb => ?_⟩
  obtain ⟨frame, h1, h2⟩ := hA buf hb
  refine ⟨frame, h1, h2.trans ?_⟩
  rw [station_said h b id hid c]
  simp only [offerOf, Option.bind_some, Res.ok.injEq]
  by_cases hf : id.bytes = id'.bytes ∧ methodsOf c = methodsOf c' ∧
      c.mesh_capability.accept_additional_mesh_peerings = true
  · rw [if_pos hf, if_pos (by exact hf)]; rfl
  · rw [if_neg hf, if_neg (by exact hf)]; rfl

omit [Crc32] in
/-- Violation: a mesh with an ID that is not UTF-8 is found by nobody, whatever the ID is with which it is looked for. -/
theorem c106_octets_lost (id : Str) (own : MeshConfigurationElement) (hc : MethodsCanonical own) (els : Bytes)
    (raws : List RawElement) (h : ElementsOf els raws) (hu : ∀ r ∈ raws, r.tlv_type = 114 → ¬ IsUtf8 r.slice) :
    meshOffer id own els = .ok none := by
  have hn : meshNameIn meshIdRead raws = none := by
    rw [meshNameIn, List.findSome?_eq_none_iff]
    intro r hr
    rw [if_neg]
    rintro ⟨h1, h2⟩
    simp only [meshIdRead, Bool.and_eq_true] at h2
    exact hu r hr (BitVec.eq_of_toNat_eq h1) ((utf8Valid_iff _).1 h2.2)
  rw [c106_exact id own hc els raws h, neighbourFrom, hn]
  rfl

omit [Crc32] in
/-- Violation: two stations with the same octets do not find each other if one of them holds a named identifier as `Unknown`:
values that are written alike are compared as different.  Here SAE is held as `Unknown(1)`. -/
theorem c106_unknown_lost (id : Str) (own : MeshConfigurationElement)
    (hu : own.authentication_protocol_identifier = .Unknown 1) (els : Bytes) : meshOffer id own els = .ok none := by
  obtain ⟨raws, h⟩ := elementsOf_exists els
  obtain ⟨o, h1, -⟩ := first_id h
  have h3 := getFirst_said h 113 meshConfigurationKind rfl mesh_safe 7 _ mesh_parsed
  simp only [meshOffer, h1, h3, Res.ok_bind]
  cases o with
  | none => rfl
  | some e =>
    cases saidIn (113 : Byte).toNat 7 raws with
    | none => rfl
    | some p =>
      simp only [Option.map_some, pure, Res.ok.injEq]
      rw [if_neg]
      intro hs
      simp only [sameMesh, Bool.and_eq_true, beq_iff_eq] at hs
      have hs := hs.1.2
      rw [hu] at hs
      exact MeshConfigurationAuthenticationProtocolIdentifier.canonical_fromBits (p.getD 4 0) 1 hs (by decide)

omit [ScrollRule] [Crc32] in
/-- Violation: a mesh with an ID that is not UTF-8 can be taken for another one, if a second mesh ID element follows. -/
theorem c106_second_wrong (s : Bool) :
    letI : ScrollRule := ⟨s⟩
    let raws : List RawElement := [⟨114, [0xe9]⟩, ⟨114, [0x61]⟩, ⟨113, [1, 1, 0, 1, 0, 0, 1]⟩]
    let own : MeshConfigurationElement := ⟨.HWMP, .AirtimeLinkMetric, .NotActivated, .NeighborOffsetSynchronization,
      .NoAuthentication, ⟨0⟩, ⟨1⟩⟩
    offerOf [0x61] (methodsOf own) (standardNeighbour raws) = none ∧
      meshOffer ⟨[0x61], rfl⟩ own (raws.flatMap tlv) = .ok (some (false, 0)) := by
  cases s <;> exact ⟨by decide, by decide +kernel⟩

/-- Nothing panics, unless a check sequence is expected in fewer than four bytes. -/
theorem c106_panics_iff (id : Str) (own : MeshConfigurationElement) (hc : MethodsCanonical own) (fcs : Bool) (frame : Bytes) :
    heardOffer id own fcs frame = .panic ↔ fcs = true ∧ frame.length < 4 := by
  rw [← (match_mgmt readBeaconLike readBeaconLike_safe (fun r => (r.1.bssid, r.2.elements)) [.Beacon, .ProbeResponse]
    (by decide) fcs frame).1]
  simp only [List.map_cons, List.map_nil]
  unfold heardOffer
  split
  · rename_i hr
    simp [hr]
  · rename_i hr
    simp [hr]
  · rename_i els hr
    obtain ⟨raws, hraws⟩ := elementsOf_exists els
    rw [hr, c106_exact id own hc _ _ hraws]
    simp [pure]

/-- Whatever is received, an offer is taken only from beacons and probe responses, and only as their elements say. -/
theorem c106_heard_only (id : Str) (own : MeshConfigurationElement) (hc : MethodsCanonical own) (fcs : Bool) (frame : Bytes)
    (station : Mac) (o : Bool × Nat) (h : heardOffer id own fcs frame = .ok (some (station, o))) :
    ∃ (h : ManagementFrameHeader) (b0 : Byte) (fixed els : Bytes) (raws : List RawElement),
      frame = withFcs fcs (b0 :: h.fcf_flags.bits :: (mgmtHeaderWire h ++ (fixed ++ els))) ∧
      (b0.toNat / 4 % 4, b0.toNat / 16) ∈ [(0, 8), (0, 5)] ∧ HtConsistent h ∧ h.bssid = station ∧ fixed.length = 12 ∧
      ElementsOf els raws ∧ offerOf id.bytes (methodsOf own) (neighbourFrom meshIdRead raws) = some o := by
  have hm := (match_mgmt readBeaconLike readBeaconLike_safe (fun r => (r.1.bssid, r.2.elements)) [.Beacon, .ProbeResponse]
    (by decide) fcs frame).2.2
  simp only [List.map_cons, List.map_nil] at hm
  unfold heardOffer at h
  split at h
  · cases h
  · cases h
  · rename_i j bs els hr
    obtain ⟨inner, hin, k, hk, hkind, ⟨hd, body⟩, n, hread, hx⟩ := hm _ _ hr
    simp only [Prod.mk.injEq] at hx
    obtain ⟨rfl, rfl⟩ := hx
    have hbr : Bounded readBeaconLike := by
      intro inp b k h
      obtain ⟨_, _, _, _, h, _⟩ := c22_beacon.parse inp b k h
      omega
    obtain ⟨b0, rest, m, h1, h2, h3, h4, -⟩ := c23_parse _ hbr false inner hd body n hread
    obtain ⟨fx, h5, h6, -⟩ := c22_beacon.parse _ _ _ h4
    obtain ⟨raws, hraws⟩ := elementsOf_exists body.elements
    rw [c106_exact id own hc _ _ hraws, Res.ok_bind] at h
    simp only [pure, Res.ok.injEq, Option.map_eq_some_iff, Prod.mk.injEq] at h
    obtain ⟨p', hp, rfl, rfl⟩ := h
    refine ⟨hd, b0, fx, body.elements, raws, ?_, ?_, h3, rfl, h6, hraws, hp⟩
    · rw [hin, h1, h5]
      rfl
    · obtain ⟨c0, c1, r', hc, hk1, hk2, -⟩ := hkind
      rw [h1] at hc
      simp only [withFcs, Bool.false_eq_true, if_false, List.cons.injEq] at hc
      obtain ⟨rfl, -⟩ := hc
      rw [hk1, hk2]
      simp only [List.mem_cons, List.not_mem_nil, or_false] at hk
      rcases hk with rfl | rfl <;> simp [kindNumber]

omit [ScrollRule] [Crc32] in
/-- Concrete case: three stations of the mesh "m", one of the mesh "n" and one that is full.  The second has a gate and more
peerings than the first, the third has a gate and as many as the second. -/
example :
    letI : ScrollRule := ⟨true⟩
    letI : Crc32 := ⟨fun _ => 0⟩
    let own : MeshConfigurationElement := ⟨.HWMP, .AirtimeLinkMetric, .NotActivated, .NeighborOffsetSynchronization,
      .SAE, ⟨0⟩, ⟨1⟩⟩
    let m : Str := ⟨[0x6d], rfl⟩
    let st (n : Byte) (id : Str) (info cap : Byte) : OnAir := .network false
      (meshStation ⟨⟨0⟩, 0, Arr.zero 6, Arr.zero 6, ⟨[2, 0, 0, 0, 0, n], rfl⟩, ⟨0⟩, none⟩ ⟨0, 100, ⟨0⟩, ()⟩ id
        { own with mesh_formation_info := ⟨info⟩, mesh_capability := ⟨cap⟩ }) ⟨[], rfl⟩
    (do let fs ← transmit false (List.replicate 60 0)
          [st 1 m 2 9, st 2 m 7 9, st 3 m 7 9, st 4 ⟨[0x6e], rfl⟩ 1 9, st 5 m 1 8]
        choosePeer m own false fs) = .ok (some (⟨[2, 0, 0, 0, 0, 2], rfl⟩, true, 3)) ∧
    offersOn [0x6d] (methodsOf own) [st 1 m 2 9, st 2 m 7 9, st 3 m 7 9, st 4 ⟨[0x6e], rfl⟩ 1 9, st 5 m 1 8] =
      [(⟨[2, 0, 0, 0, 0, 1], rfl⟩, false, 1), (⟨[2, 0, 0, 0, 0, 2], rfl⟩, true, 3), (⟨[2, 0, 0, 0, 0, 3], rfl⟩, true, 3)] := by
  exact ⟨by decide +kernel, by decide +kernel⟩

/-- Concrete case: such stations are fine. -/
example (fcs : Bool) : (OnAir.network false
    (meshStation ⟨⟨0⟩, 0, Arr.zero 6, Arr.zero 6, Arr.zero 6, ⟨0⟩, none⟩ ⟨0, 100, ⟨0⟩, ()⟩ ⟨[0x6d], rfl⟩
      ⟨.HWMP, .AirtimeLinkMetric, .NotActivated, .NeighborOffsetSynchronization, .SAE, ⟨3⟩, ⟨9⟩⟩) ⟨[], rfl⟩).MeshFine fcs := by
  have hs := slack_le
  refine ⟨station_fine _ (by unfold HtConsistent; decide) _ _ ⟨by simp; omega, by simp⟩ _ ?_, by simp [meshStation],
    by simp, ?_⟩
  · refine ⟨?_, ?_, ?_, ?_, ?_⟩ <;> (intro v h; cases h)
  · intro p hp ht _
    simp only [meshStation, List.nil_append, List.mem_cons, List.not_mem_nil, or_false] at hp
    rcases hp with rfl | rfl
    · exact Bool.and_eq_true_iff.2 ⟨Bool.and_eq_true_iff.2 ⟨decide_eq_true hs, rfl⟩, rfl⟩
    · exact absurd ht (show ¬ (113 : Byte) = 114 by decide)

end Verif
