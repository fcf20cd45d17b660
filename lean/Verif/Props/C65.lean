import Verif.Props.C25
import Verif.Props.C49
import Verif.Props.C07
import Verif.Model.Elements.Table
/-!
# C65: from the sender's frame to the receiver's arm

A frame that is written and handed to `match_frames!` arrives in the arm of its own type, with the
header and the fields it was given, and its elements are found.
-/
namespace Verif

namespace Spec

/-- Two kinds of management frames no frame can belong to at once: the subtype numbers differ, or they
are different kinds of action frames, neither of which is the raw one. -/
def Apart (j k : MgmtKind) : Prop :=
  kindNumber j ≠ kindNumber k ∨ (j ≠ k ∧ j ≠ .RawAction ∧ k ≠ .RawAction)

/-- The type of an arm which does not take frames of kind `k`. -/
def OtherThan [ScrollRule] (k : MgmtKind) (t : FrameKind) : Prop :=
  t = controlFrameKind ∨ t = dataFrameKind ∨ ∃ j, Apart j k ∧ t = j.frame

/-- An arm for a frame type: its kind and its parser, with the binding handed to the block of the arm. -/
def armOf {α β : Type} (k : FrameKind) (read : Bool → Reader β) (block : β → α) :
    FrameKind × (Bool → Reader α) :=
  (k, fun fcs inp => (read fcs inp).map fun r => (block r.1, r.2))

/-- The bytes of the body say what kind of action frame it is, for action frames. -/
def MarkedAs (k : MgmtKind) (body : Bytes) : Prop :=
  kindNumber k = 13 → ∃ c p, body = c :: p ∧ actionIs k c p

/-- Frames of kind `k` with the body type `β` arrive: a frame whose elements are given by a chain is
written, with or without check sequence, into any buffer that is large enough.  `match_frames!` over the
written bytes, whatever its arms are, as long as those before the one for `k` are for other types, runs
the block of that arm.  The block gets the header and the fields that were sent (`set` replaces the chain
by the received bytes), and the received bytes are the elements of the chain. -/
def Arrives [ScrollRule] [Crc32] (k : MgmtKind) {β : Type → Type} (read : Reader (β Bytes))
    (write : β Obj → Writer) (get : (ε : Type) → β ε → ε) (set : (ε δ : Type) → β ε → δ → β δ)
    (valid : β Bytes → Prop) : Prop :=
  ∀ (h : ManagementFrameHeader), HtConsistent h → ∀ (b : β Obj) (c : Chain) (raws : List RawElement)
    (x : Nat), (get _ b).write = c.write → ChainOf c raws x →
    (∀ r, raws.getLast? = some r → slack ≤ r.slice.length) →
    valid (set _ _ b (raws.flatMap tlv)) →
    ∀ (fcs : Bool) (α : Type) (block : ManagementFrameHeader × β Bytes → α)
      (pre post : List (FrameKind × (Bool → Reader α))), (∀ a ∈ pre, OtherThan k a.1) →
    ∃ size, ∀ buf : Bytes, size ≤ buf.length → ∃ out n els,
      writeMgmtFrame k.SUBTYPE h (write b) fcs buf = .ok (out, n) ∧
      matchFrames (out.take n) (if fcs then some true else none)
        (pre ++ armOf k.frame (readMgmtFrame read) block :: post) =
          .ok (pre.length, block (h, set _ _ b els)) ∧
      ElementsOf els raws

end Spec

open Spec

variable [ScrollRule] [Crc32]

omit [ScrollRule] [Crc32] in
/-- A frame as it is written is of the kind that was written: the kind's subtype is in the frame control
field, and the header ends where `matches` looks for the category. -/
theorem c65_kind (k : MgmtKind) (h : ManagementFrameHeader) (hc : HtConsistent h) (body : Bytes)
    (hm : MarkedAs k body) : IsKind k (mgmtFrameWire k.SUBTYPE h body) := by
  refine ⟨_, _, _, rfl, ?_, ?_, fun h13 => ?_⟩
  · cases k <;> rfl
  · cases k <;> rfl
  · obtain ⟨c, p, hb, ha⟩ := hm h13
    refine ⟨c, p, ?_, ha⟩
    subst hb
    have ho : h.fcf_flags.order = true ↔ h.fcf_flags.bits.toNat / 128 = 1 := by
      have := h.fcf_flags.bits.isLt
      rw [FCFFlags.order, getBit, BitVec.getLsbD, Nat.testBit_eq_decide_div_mod_eq, decide_eq_true_iff]
      omega
    have hl : (frameStart (.Management k.SUBTYPE) h.fcf_flags ++ mgmtHeaderWire h).length =
        if h.fcf_flags.bits.toNat / 128 = 1 then 28 else 24 := by
      rw [HtConsistent] at hc
      simp only [List.length_append, frameStart_length, mgmtHeaderWire, toLE_length, Arr.length_val]
      by_cases hx : h.fcf_flags.order = true
      · rw [if_pos (ho.1 hx)]
        rw [hx] at hc
        cases hh : h.ht_control with
        | none => rw [hh] at hc; cases hc
        | some v => simp [optWire]
      · rw [if_neg (fun y => hx (ho.2 y))]
        cases hh : h.ht_control with
        | none => simp [optWire]
        | some v => rw [hh] at hc; exact absurd hc.symm hx
    rw [← hl]
    simp only [mgmtFrameWire]
    rw [← List.append_assoc]
    exact List.drop_left

omit [Crc32] in
/-- Frames of a kind are not taken by arms of other kinds. -/
theorem c65_not_taken [Crc32] (k : MgmtKind) (bs : Bytes) (hl : 10 ≤ bs.length) (hk : IsKind k bs)
    (t : FrameKind) (ht : OtherThan k t) : (GenericFrame.mk bs).matches t = .ok false := by
  obtain ⟨h1, h2, _⟩ := c25_types_exclusive k bs
  rcases ht with rfl | rfl | ⟨j, hj, rfl⟩
  · exact (c25_control_data bs hl).2.1.2 fun h => h1 ⟨hk, h⟩
  · exact (c25_control_data bs hl).2.2.2.2 fun h => h2 ⟨hk, h⟩
  · refine (c25_mgmt j bs hl).2.2 fun h => ?_
    rcases hj with hn | ⟨hne, hj, hk'⟩
    · obtain ⟨b0, b1, r, rfl, _, h3, _⟩ := h
      obtain ⟨c0, c1, r', heq, _, g3, _⟩ := hk
      rw [(List.cons.inj heq).1] at h3
      exact hn (h3.symm.trans g3)
    · exact c25_exclusive_partial j k hne hj hk' bs ⟨h, hk⟩

/-- The arms before do not match, the arm's type does and its parser succeeds. -/
private theorem arms_hit {α : Type} (g : GenericFrame) (hl : 10 ≤ g.bytes.length)
    (pre : List (FrameKind × (Bool → Reader α))) (k : FrameKind) (read : Bool → Reader α)
    (post : List (FrameKind × (Bool → Reader α))) (i : Nat)
    (hpre : ∀ a ∈ pre, g.matches a.1 = .ok false) (hk : g.matches k = .ok true) (a : α) (n : Nat)
    (hr : read false g.bytes = .ok (a, n)) :
    tryArms g i (pre ++ (k, read) :: post) = .ok (i + pre.length, a) := by
  have hsl := slack_le
  induction pre generalizing i with
  | nil =>
    have : g.parseToTyped k read = .ok (some (.ok a)) := by
      simp only [GenericFrame.parseToTyped, hk, Res.ok_bind, if_true]
      rw [pread0, if_neg (by omega), hr]
      rfl
    simp only [List.nil_append, tryArms, this, Res.ok_bind, List.length_nil, Nat.add_zero]
  | cons b pre ih =>
    obtain ⟨k', r'⟩ := b
    have : g.parseToTyped k' r' = .ok none := by
      simp only [GenericFrame.parseToTyped, hpre (k', r') (by simp), Res.ok_bind]
      rfl
    simp only [List.cons_append, tryArms, this, Res.ok_bind]
    rw [ih (i + 1) fun a h => hpre a (by simp [h])]
    simp only [List.length_cons]
    rw [show i + 1 + pre.length = i + (pre.length + 1) by omega]

omit [ScrollRule] [Crc32] in
private theorem wire_long (s : ManagementFrameSubtype) (h : ManagementFrameHeader) (body : Bytes) :
    10 ≤ (mgmtFrameWire s h body).length := by
  simp [mgmtFrameWire, mgmtHeaderWire]; omega

/-- A management frame as it is written reaches the first arm of its type if the arms before it are for
other types, whether it comes with a check sequence or without; the block gets the header and what the
body's parser makes of the body. -/
theorem c65_mgmt {α β : Type} (k : MgmtKind) (h : ManagementFrameHeader) (hc : HtConsistent h)
    (body : Bytes) (hm : MarkedAs k body) (hl : slack ≤ body.length) (read : Reader β) (b : β) (n : Nat)
    (hr : read body = .ok (b, n)) (block : ManagementFrameHeader × β → α)
    (pre post : List (FrameKind × (Bool → Reader α))) (hpre : ∀ a ∈ pre, OtherThan k a.1) :
    let arms := pre ++ armOf k.frame (readMgmtFrame read) block :: post
    let frame := mgmtFrameWire k.SUBTYPE h body
    matchFrames (withFcs false frame) none arms = .ok (pre.length, block (h, b)) ∧
    ∀ c, matchFrames (withFcs true frame) (some c) arms = .ok (pre.length, block (h, b)) := by
  intro arms frame
  have hlen : 10 ≤ frame.length := wire_long _ _ _
  have hk : IsKind k frame := c65_kind k h hc body hm
  have hread := c23_read k.SUBTYPE (c23_subtypes.1 k) h hc read body b n hr hl false
  have hhit : tryArms ⟨frame⟩ 0 arms = .ok (pre.length, block (h, b)) := by
    have := arms_hit ⟨frame⟩ hlen pre k.frame (armOf k.frame (readMgmtFrame read) block).2 post 0
      (fun a ha => c65_not_taken k frame hlen hk a.1 (hpre a ha)) ((c25_mgmt k frame hlen).1.2 hk)
      (block (h, b)) (2 + ((mgmtHeaderWire h).length + n)) (by
        simp only [armOf]
        rw [show readMgmtFrame read false frame = _ from hread]
        rfl)
    rw [Nat.zero_add] at this
    exact this
  obtain ⟨h1, h2⟩ := c25_match_frames frame hlen arms
  exact ⟨h1.trans hhit, fun c => (h2 c).trans hhit⟩

/-- Every body laid out as in C22 arrives, given that the fixed fields of action frames begin with the
category and action code of their kind. -/
theorem c65_arrives {k : MgmtKind} {β : Type → Type} {read : Reader (β Bytes)}
    {write : β Obj → Writer} {get : (ε : Type) → β ε → ε} {set : (ε δ : Type) → β ε → δ → β δ}
    {fixed : (ε : Type) → β ε → Bytes} {valid : β Bytes → Prop} {n : Nat} {need : Nat → Nat}
    {same : Bytes → Bytes → Prop} (hB : BodyOf read write get set fixed valid n need same)
    (hm : ∀ (b : β Obj) (e : Bytes), MarkedAs k (fixed _ b ++ e)) :
    Arrives k read write get set valid := by
  intro h hc b c raws x hw hch hlast hv fcs α block pre post hpre
  have he := hch.emits
  rw [← hw] at he
  have hE := c23_write k.SUBTYPE (c23_subtypes.1 k) h (write b) _ _ (hB.writes b _ _ he) fcs
  have hne : slack ≤ (raws.flatMap tlv).length := by
    have := slack_le
    cases hch <;> simp [tlv] <;> omega
  have hr := hB.reads (set _ _ b (raws.flatMap tlv)) hv (by rw [hB.get_set]; exact hne)
  rw [hB.get_set, hB.fixed_set] at hr
  obtain ⟨h1, h2⟩ := c65_mgmt k h hc _ (hm b _) (by simp only [List.length_append]; omega) read _ _ hr block pre post hpre
  refine ⟨_, fun buf hb => ⟨_, _, raws.flatMap tlv, hE.ok buf hb, ?_,
    elementsOf_flatMap _ hch.len_le hlast⟩⟩
  rw [List.take_left]
  cases fcs
  · exact h1
  · exact h2 true

/-- The bodies of the library that carry elements.  Partial: the HT control field must agree with the
order bit (C21), status and reason codes and the association ID must be ones the library can return, and
under the strict rule of `scroll` the last element must not be empty. -/
theorem c65_bodies_partial :
    Arrives .AssociationRequest readAssociationRequest writeAssociationRequest (fun _ b => b.elements)
      (fun _ _ b e => ⟨b.capabilities_info, b.listen_interval, e⟩) (fun _ => True) ∧
    Arrives .AssociationResponse readAssociationResponse writeAssociationResponse
      (fun _ b => b.elements)
      (fun _ _ b e => ⟨b.capabilities_info, b.status_code, b.association_id, e⟩)
      (fun b => b.status_code.Canonical ∧ ∀ a, b.association_id = some a → IsAid a) ∧
    Arrives .ProbeRequest readProbeRequest writeProbeRequest (fun _ b => b.elements)
      (fun _ _ _ e => ⟨e⟩) (fun _ => True) ∧
    Arrives .ProbeResponse readBeaconLike writeBeaconLike (fun _ b => b.elements)
      (fun _ _ b e => ⟨b.timestamp, b.beacon_interval, b.capabilities_info, e⟩) (fun _ => True) ∧
    Arrives .Beacon readBeaconLike writeBeaconLike (fun _ b => b.elements)
      (fun _ _ b e => ⟨b.timestamp, b.beacon_interval, b.capabilities_info, e⟩) (fun _ => True) ∧
    Arrives .Disassociation readDisassociation writeDisassociation (fun _ b => b.elements)
      (fun _ _ b e => ⟨b.reason, e⟩) (fun b => b.reason.Canonical) ∧
    Arrives .Authentication readAuthentication writeAuthentication (fun _ b => b.elements)
      (fun _ _ b e => ⟨b.authentication_algorithm_number, b.authentication_transaction_sequence_number,
        b.status_code, e⟩)
      (fun b => b.authentication_algorithm_number.Canonical ∧ b.status_code.Canonical) ∧
    Arrives .Deauthentication readDeauthentication writeDeauthentication (fun _ b => b.elements)
      (fun _ _ b e => ⟨b.reason, e⟩) (fun b => b.reason.Canonical) ∧
    Arrives .MeshPeeringOpen readMeshPeeringOpen writeMeshPeeringOpen (fun _ b => b.elements)
      (fun _ _ b e => ⟨b.capabilities_info, e⟩) (fun _ => True) ∧
    Arrives .MeshPeeringConfirm readMeshPeeringConfirm writeMeshPeeringConfirm (fun _ b => b.elements)
      (fun _ _ b e => ⟨b.capabilities_info, b.association_id, e⟩) (fun b => IsAid b.association_id) ∧
    Arrives .MeshPeeringClose readMeshPeeringClose writeMeshPeeringClose (fun _ b => b.elements)
      (fun _ _ _ e => ⟨e⟩) (fun _ => True) :=
  ⟨c65_arrives c22_association_request (fun _ _ h => by cases h),
    c65_arrives c22_association_response (fun _ _ h => by cases h),
    c65_arrives c22_probe_request (fun _ _ h => by cases h),
    c65_arrives c22_beacon (fun _ _ h => by cases h),
    c65_arrives c22_beacon (fun _ _ h => by cases h),
    c65_arrives c22_disassociation (fun _ _ h => by cases h),
    c65_arrives c22_authentication (fun _ _ h => by cases h),
    c65_arrives c22_deauthentication (fun _ _ h => by cases h),
    c65_arrives c22_mesh_peering_open (fun _ _ _ => ⟨_, _, rfl, rfl, rfl⟩),
    c65_arrives c22_mesh_peering_confirm (fun _ _ _ => ⟨_, _, rfl, rfl, rfl⟩),
    c65_arrives c22_mesh_peering_close (fun _ _ _ => ⟨_, _, rfl, rfl, rfl⟩)⟩

/-- Raw and vendor specific action frames arrive with their payload.  Partial for the same reason, and
the category of a raw action frame must be one the library can return. -/
theorem c65_actions_partial {α : Type} (h : ManagementFrameHeader) (hc : HtConsistent h) (fcs : Bool)
    (pre post : List (FrameKind × (Bool → Reader α))) :
    (∀ (b : RawActionBody), b.category_code.Canonical →
      ∀ (block : ManagementFrameHeader × RawActionBody → α), (∀ a ∈ pre, OtherThan .RawAction a.1) →
      ∃ size, ∀ buf : Bytes, size ≤ buf.length → ∃ out n,
        writeMgmtFrame .Action h (writeRawAction b) fcs buf = .ok (out, n) ∧
        matchFrames (out.take n) (if fcs then some true else none)
          (pre ++ armOf MgmtKind.RawAction.frame (readMgmtFrame readRawAction) block :: post) =
            .ok (pre.length, block (h, b))) ∧
    (∀ (oui : Arr 3) (o : Obj) (p : Bytes) (m : Nat), Emits o.write p m →
      ∀ (block : ManagementFrameHeader × VendorActionBody Bytes → α),
      (∀ a ∈ pre, OtherThan .VendorAction a.1) →
      ∃ size, ∀ buf : Bytes, size ≤ buf.length → ∃ out n,
        writeMgmtFrame .Action h (writeVendorAction ⟨oui, o⟩) fcs buf = .ok (out, n) ∧
        matchFrames (out.take n) (if fcs then some true else none)
          (pre ++ armOf MgmtKind.VendorAction.frame (readMgmtFrame readVendorAction) block :: post) =
            .ok (pre.length, block (h, ⟨oui, p⟩))) := by
  have hsl := slack_le
  constructor
  · intro b hb block hpre
    obtain ⟨h1, h2⟩ := c65_mgmt .RawAction h hc _ (fun _ => ⟨_, _, rfl, trivial⟩)
      (by simp only [List.length_cons]; omega) readRawAction b 1 (c48_raw_round_trip b hb) block pre
      post hpre
    have hE := c23_write _ (c23_subtypes.1 .RawAction) h _ _ _ (c48_raw_write b) fcs
    refine ⟨_, fun buf hb => ⟨_, _, hE.ok buf hb, ?_⟩⟩
    rw [List.take_left]
    cases fcs
    · exact h1
    · exact h2 true
  · intro oui o p m ho block hpre
    obtain ⟨h1, h2⟩ := c65_mgmt .VendorAction h hc _ (fun _ => ⟨_, _, rfl, rfl⟩)
      (by simp only [List.length_cons]; omega) readVendorAction ⟨oui, p⟩ 4
      (c48_vendor_round_trip oui p) block pre post hpre
    have hE := c23_write _ (c23_subtypes.1 .VendorAction) h _ _ _ (c48_vendor_write ⟨oui, o⟩ p m ho) fcs
    refine ⟨_, fun buf hb => ⟨_, _, hE.ok buf hb, ?_⟩⟩
    rw [List.take_left]
    cases fcs
    · exact h1
    · exact h2 true

/-- A data frame as it is written reaches the first arm for data frames if the arms before it are for
control and management frames, whether it comes with a check sequence or without. -/
theorem c65_data {α : Type} (f : DataFrame Bytes) (hv : ValidData f.header)
    (hc : HeaderConsistent f.header) (hp : PayloadConsistent f) (block : DataFrame Bytes → α)
    (pre post : List (FrameKind × (Bool → Reader α)))
    (hpre : ∀ a ∈ pre, a.1 = controlFrameKind ∨ ∃ k : MgmtKind, a.1 = k.frame) :
    let arms := pre ++ armOf dataFrameKind readDataFrame block :: post
    let frame := dataFrameWire f.header (f.payload.getD [])
    matchFrames (withFcs false frame) none arms = .ok (pre.length, block f) ∧
    ∀ c, matchFrames (withFcs true frame) (some c) arms = .ok (pre.length, block f) := by
  intro arms frame
  have hread : readDataFrame false frame = _ := c49_read f hv hc hp false
  have hlen : 10 ≤ frame.length := by
    simp [frame, dataFrameWire, dataHeaderWire]; omega
  have hty : IsType 2 frame := by
    refine ⟨_, _, rfl, ?_⟩
    simp only [typeNumbers, BitVec.toNat_ofNat]
    omega
  have hhit : tryArms ⟨frame⟩ 0 arms = .ok (pre.length, block f) := by
    have := arms_hit ⟨frame⟩ hlen pre dataFrameKind (armOf dataFrameKind readDataFrame block).2 post 0
      (fun a ha => by
        rcases hpre a ha with h1 | ⟨k, h1⟩
        · rw [h1]
          exact (c25_control_data frame hlen).2.1.2 fun h =>
            (c25_types_exclusive .Beacon frame).2.2 ⟨h, hty⟩
        · rw [h1]
          exact (c25_mgmt k frame hlen).2.2 fun h => (c25_types_exclusive k frame).2.1 ⟨h, hty⟩)
      ((c25_control_data frame hlen).2.2.1.2 hty) (block f) (2 + (dataHeaderWire f.header).length) (by
        simp only [armOf]
        rw [hread]
        rfl)
    rw [Nat.zero_add] at this
    exact this
  obtain ⟨h1, h2⟩ := c25_match_frames frame hlen arms
  exact ⟨h1.trans hhit, fun c => (h2 c).trans hhit⟩

/-- Data frames arrive in the arm for data frames.  Partial: the header must agree with its flags and subtype,
and the payload with the subtype. -/
theorem c65_data_partial {α : Type} (f : DataFrame Obj) (hv : ValidData f.header)
    (hc : HeaderConsistent f.header) (hpc : PayloadConsistent f) (p : Option Bytes)
    (hp : match f.payload, p with
      | none, none => True
      | some o, some bs => ∃ k, Emits o.write bs k
      | _, _ => False) (fcs : Bool) (block : DataFrame Bytes → α)
    (pre post : List (FrameKind × (Bool → Reader α)))
    (hpre : ∀ a ∈ pre, a.1 = controlFrameKind ∨ ∃ k : MgmtKind, a.1 = k.frame) :
    ∃ size, ∀ buf : Bytes, size ≤ buf.length → ∃ out n,
      writeDataFrame f fcs buf = .ok (out, n) ∧
      matchFrames (out.take n) (if fcs then some true else none)
        (pre ++ armOf dataFrameKind readDataFrame block :: post) =
          .ok (pre.length, block ⟨f.header, p⟩) := by
  obtain ⟨h, o⟩ := f
  have hE : ∃ size, Emits (writeDataFrame ⟨h, o⟩ fcs) (withFcs fcs (dataFrameWire h (p.getD []))) size := by
    cases o with
    | none =>
      cases p with
      | none => exact ⟨_, c49_write ⟨h, none⟩ hv [] 0 ⟨rfl, rfl⟩ fcs⟩
      | some p => exact hp.elim
    | some o =>
      cases p with
      | none => exact hp.elim
      | some p =>
        obtain ⟨k, hk⟩ := hp
        exact ⟨_, c49_write ⟨h, some o⟩ hv p _ ⟨k, hk, rfl⟩ fcs⟩
  have hpc' : PayloadConsistent (⟨h, p⟩ : DataFrame Bytes) := by
    simp only [PayloadConsistent] at hpc ⊢
    rw [← hpc]
    cases o <;> cases p <;> first | exact hp.elim | simp
  obtain ⟨h1, h2⟩ := c65_data ⟨h, p⟩ hv hc hpc' block pre post hpre
  obtain ⟨size, hE⟩ := hE
  refine ⟨size, fun buf hb => ⟨_, _, hE.ok buf hb, ?_⟩⟩
  rw [List.take_left]
  cases fcs
  · exact h1
  · exact h2 true

/-! ## Concrete cases -/

/-- Kinds which are apart, and two which are not. -/
example : Apart .Beacon .ProbeResponse ∧ Apart .MeshPeeringOpen .MeshPeeringClose ∧
    Apart .RawAction .Beacon ∧ ¬ Apart .RawAction .VendorAction ∧ ¬ Apart .Beacon .Beacon := by
  simp [Apart, kindNumber]

omit [ScrollRule] [Crc32] in
/-- The arms of /repo/examples/match_frames.rs: a beacon with check sequence is written, and arrives in
the second arm, where its name is read; a mesh peering frame is not taken by any arm. -/
example (s : Bool) : letI : ScrollRule := ⟨s⟩
    let _ : Crc32 := ⟨fun bs => BitVec.ofNat 32 bs.length⟩
    let m : Mac := ⟨[1, 2, 3, 4, 5, 6], rfl⟩
    let h : ManagementFrameHeader := ⟨⟨0⟩, 0, m, m, m, ⟨0x30⟩, none⟩
    let name : Str := ⟨[0x61, 0x62], by decide⟩
    let c := elementChain (.typed (supportedRatesElem ⟨[⟨0x82⟩]⟩)) [.typed (ssidElem ⟨name⟩)]
    let arms : List (FrameKind × (Bool → Reader (Res (Option Str)))) :=
      [armOf MgmtKind.Deauthentication.frame (readMgmtFrame readDeauthentication) fun _ => .ok none,
        armOf MgmtKind.Beacon.frame (readMgmtFrame readBeaconLike) fun f => bodySsid f.2.elements,
        armOf dataFrameKind readDataFrame fun _ => .ok none,
        armOf MgmtKind.VendorAction.frame (readMgmtFrame readVendorAction) fun _ => .ok none]
    (match writeMgmtFrame .Beacon h (writeBeaconLike ⟨9, 100, ⟨1⟩, ⟨c.write, c.measure⟩⟩) true
        (List.replicate 50 0) with
      | .ok (out, n) => matchFrames (out.take n) (some true) arms
      | _ => .panic) = .ok (1, .ok (some name)) ∧
    (match writeMgmtFrame .Action h (writeMeshPeeringClose ⟨⟨c.write, c.measure⟩⟩) false
        (List.replicate 50 0) with
      | .ok (out, n) => matchFrames (out.take n) none arms
      | _ => .panic) = .err .badInput := by
  cases s <;> decide +kernel

end Verif
