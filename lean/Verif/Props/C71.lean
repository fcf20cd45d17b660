import Verif.Model.ByteOrder
import Verif.Props.C19
import Verif.Props.C27
import Verif.Props.C17
/-!
# C71: the byte order of the machine

What a frame means should not depend on the machine that reads or writes it.  Four places of the crate use the
machine's own byte order: the duration and sequence control of a data frame header (read only), the sequence
control of a frame read generically, the capabilities of an RSN element (read only), and the mesh peering
element (read and written).  The theorems say exactly what a big-endian machine makes of the same bytes, and that
nothing else changes.
-/
namespace Verif

namespace Spec

/-- The two bytes of a number exchanged. -/
def swap16 (x : BitVec 16) : BitVec 16 := x.extractLsb' 0 8 ++ x.extractLsb' 8 8

/-- A data frame header with the two bytes of the duration and of the sequence control exchanged. -/
def swapHeader (h : DataFrameHeader) : DataFrameHeader :=
  { h with duration := swap16 h.duration, sequence_control := ⟨swap16 h.sequence_control.bits⟩ }

/-- An RSN element with the two bytes of the capabilities exchanged. -/
def swapRsn (e : RsnElement.Parsed) : RsnElement.Parsed :=
  { e with rsn_capbilities := e.rsn_capbilities.map fun c => ⟨swap16 c.bits⟩ }

/-- A reason code with its two bytes exchanged. -/
def swapReason (r : IEEE80211Reason) : IEEE80211Reason := .fromBits (swap16 r.intoBits)

/-- A mesh peering element with the bytes of protocol and local link ID exchanged. -/
def swapPeering (e : MeshPeeringManagement) : MeshPeeringManagement :=
  { e with mesh_peering_protocol_identifier := .fromBits (swap16 e.mesh_peering_protocol_identifier.intoBits)
           local_link_id := swap16 e.local_link_id }

/-- An interpreted mesh peering element with the bytes of peer link ID and reason exchanged. -/
def swapParsed (q : ParsedMeshPeeringManagement) : ParsedMeshPeeringManagement :=
  { q with peer_link_id := q.peer_link_id.map swap16, reason_code := q.reason_code.map swapReason }

/-- The bytes of a number in the byte order of the machine. -/
def nativeBytes (big : Bool) (x : BitVec 16) : Bytes := if big then toBE x else toLE x

/-- The bytes of a mesh peering element with all numbers in the byte order of the machine. -/
def nativePeeringWire (big : Bool) (q : ParsedMeshPeeringManagement) : Bytes :=
  nativeBytes big q.mesh_peering_protocol_identifier.intoBits ++ nativeBytes big q.local_link_id ++
  (match q.peer_link_id with | some x => nativeBytes big x | none => []) ++
  (match q.reason_code with | some r => nativeBytes big r.intoBits | none => []) ++
  (match q.pmk with | some k => k.val | none => [])

end Spec

open Spec

/-! ## Exchanging the bytes -/

private theorem low (a b : BitVec 8) : (a ++ b).extractLsb' 0 8 = b := by
  ext i hi
  simp only [BitVec.getElem_extractLsb', BitVec.getLsbD_append]
  grind

private theorem high (a b : BitVec 8) : (a ++ b).extractLsb' 8 8 = a := by
  ext i hi
  simp only [BitVec.getElem_extractLsb', BitVec.getLsbD_append]
  grind

private theorem halves (x : BitVec 16) : x.extractLsb' 8 8 ++ x.extractLsb' 0 8 = x := by
  ext i hi
  simp only [BitVec.getElem_append, BitVec.getElem_extractLsb']
  split <;> grind

theorem c71_swap_swap (x : BitVec 16) : swap16 (swap16 x) = x := by
  unfold swap16
  rw [low, high, halves]

/-- A number is unchanged exactly if its two bytes are the same. -/
theorem c71_swap_same (x : BitVec 16) : swap16 x = x ↔ x.extractLsb' 0 8 = x.extractLsb' 8 8 := by
  constructor
  · intro h
    have := congrArg (·.extractLsb' 0 8) h
    simp only [swap16, low] at this
    exact this.symm
  · intro h
    have := halves x
    unfold swap16
    rw [h] at this ⊢
    exact this

private theorem swap_two (a b : Byte) : fromLE 16 [b, a] = swap16 (fromLE 16 [a, b]) := by
  have h : ∀ a b : Byte, fromLE 16 [a, b] = b ++ a := by
    intro a b
    apply BitVec.eq_of_toNat_eq
    simp only [fromLE, leNat, BitVec.toNat_ofNat, BitVec.toNat_append]
    rw [Nat.shiftLeft_eq, Nat.mul_comm b.toNat, ← Nat.two_pow_add_eq_or_of_lt a.isLt]
    have := a.isLt
    have := b.isLt
    omega
  rw [h, h]
  unfold swap16
  rw [low, high]

private theorem toBE_swap (x : BitVec 16) : toBE x = toLE (swap16 x) := by
  have h : toLE x = [x.extractLsb' 0 8, x.extractLsb' 8 8] := by
    simp only [toLE, leBytes, Nat.reduceDiv, List.cons.injEq, and_true]
    constructor <;> apply BitVec.eq_of_toNat_eq <;> simp [Nat.shiftRight_eq_div_pow]
  have h' : toLE (swap16 x) = [(swap16 x).extractLsb' 0 8, (swap16 x).extractLsb' 8 8] := by
    simp only [toLE, leBytes, Nat.reduceDiv, List.cons.injEq, and_true]
    constructor <;> apply BitVec.eq_of_toNat_eq <;> simp [Nat.shiftRight_eq_div_pow]
  rw [h', swap16, low, high, toBE, h]
  rfl

private theorem readBE_swap (inp : Bytes) :
    readBE 16 inp = (readLE 16 inp).map fun p => (swap16 p.1, p.2) := by
  match inp with
  | [] => rfl
  | [_] => rfl
  | a :: b :: t =>
    simp only [readBE, readLE, fromBE]
    simp [Res.map, swap_two a b]

private theorem writeBE_swap (x : BitVec 16) : writeBE x = writeLE (swap16 x) := by
  simp only [writeBE, writeLE, toBE_swap]

/-! ## Pushing a function on the result through a reader -/

/-- The reader followed by a function on its result. -/
private def on {α β : Type} (f : α → β) (p : Rd α) : Rd β := fun inp off =>
  (p inp off).map fun r => (f r.1, r.2)

variable [ScrollRule]

private theorem gread_swap : Rd.gread (readBE 16) = on swap16 (Rd.gread (readLE 16)) := by
  funext inp off
  simp only [Rd.gread, on, readBE_swap]
  split
  · rfl
  · cases readLE 16 (inp.drop off) <;> rfl

private theorem greadOk_swap :
    Rd.greadOk (readBE 16) = on (Option.map swap16) (Rd.greadOk (readLE 16)) := by
  funext inp off
  simp only [Rd.greadOk, gread_swap, on]
  cases Rd.gread (readLE 16) inp off <;> rfl

omit [ScrollRule] in
private theorem on_bind_arg {α β γ : Type} (f : α → β) (p : Rd α) (g : β → Rd γ) :
    (on f p >>= g) = (p >>= fun a => g (f a)) := by
  funext inp off
  show Rd.bind _ _ _ _ = Rd.bind _ _ _ _
  simp only [Rd.bind, on]
  cases p inp off <;> rfl

omit [ScrollRule] in
private theorem on_bind {α β γ : Type} (f : β → γ) (p : Rd α) (g : α → Rd β) :
    on f (p >>= g) = (p >>= fun a => on f (g a)) := by
  funext inp off
  show (Rd.bind _ _ _ _).map _ = Rd.bind _ _ _ _
  simp only [Rd.bind, on]
  cases p inp off <;> rfl

omit [ScrollRule] in
private theorem on_pure {α β : Type} (f : α → β) (a : α) : on f (pure a : Rd α) = pure (f a) := rfl

omit [ScrollRule] in
private theorem on_fail {α β : Type} (f : α → β) (e : Err) : on f (Rd.fail e : Rd α) = Rd.fail e := rfl

omit [ScrollRule] in
private theorem run_on {α β : Type} (f : α → β) (p : Rd α) (inp : Bytes) :
    Rd.run (on f p) inp = (Rd.run p inp).map fun r => (f r.1, r.2) := rfl

/-! ## A little-endian machine -/

/-- On a little-endian machine the functions are those of the rest of the model. -/
theorem c71_little :
    readDataHeaderOn false = readDataHeader ∧
    GenericFrame.sequenceControlOn false = GenericFrame.sequenceControl ∧
    readRsnOn false = readRsn ∧
    readMeshPeeringOn false = readMeshPeering ∧
    writeMeshPeeringOn false = writeMeshPeering ∧
    MeshPeeringManagement.newConfirmOn false = MeshPeeringManagement.newConfirm ∧
    MeshPeeringManagement.newCloseOn false = MeshPeeringManagement.newClose ∧
    MeshPeeringManagement.parseAsConfirmOn false = MeshPeeringManagement.parseAsConfirm ∧
    MeshPeeringManagement.parseAsCloseOn false = MeshPeeringManagement.parseAsClose :=
  ⟨rfl, rfl, rfl, rfl, rfl, rfl, by
    funext p l peer reason pmk
    cases peer <;> rfl, rfl, rfl⟩

/-! ## A big-endian machine -/

private theorem header_big : ∀ inp, readDataHeaderOn true inp =
    (readDataHeader inp).map fun r => (swapHeader r.1, r.2) := by
  intro inp
  unfold readDataHeader readDataHeaderOn
  rw [← run_on]
  congr 1
  simp only [on_bind, readNative, if_true, gread_swap]
  refine congrArg _ (funext fun f => ?_)
  cases (FrameControlField.mk f).frameType <;>
    simp only [on_bind, on_bind_arg, on_pure, on_fail] <;> rfl

/-- Data frame headers: the same bytes are accepted, with the same outcome, but with the bytes of the duration
and of the sequence control exchanged; every other field is the same. -/
theorem c71_data_header (inp : Bytes) :
    (∀ h n, readDataHeaderOn true inp = .ok (h, n) ↔ readDataHeader inp = .ok (swapHeader h, n)) ∧
    (∀ e, readDataHeaderOn true inp = .err e ↔ readDataHeader inp = .err e) ∧
    (readDataHeaderOn true inp = .panic ↔ readDataHeader inp = .panic) := by
  have hs : ∀ h, swapHeader (swapHeader h) = h := by
    intro h; cases h; simp [swapHeader, c71_swap_swap]
  rw [header_big]
  refine ⟨fun h n => ?_, fun e => ?_, ?_⟩ <;> cases readDataHeader inp with
  | ok r => simp [Res.map]; try grind
  | _ => simp [Res.map]

/-- The sequence control of a frame read generically has its bytes exchanged. -/
theorem c71_sequence_control (g : GenericFrame) : g.sequenceControlOn true =
    g.sequenceControl.map (Option.map fun s => ⟨swap16 s.bits⟩) := by
  unfold GenericFrame.sequenceControlOn GenericFrame.sequenceControl
  cases g.frameControlField with
  | ok f =>
    show (if _ then _ else _) = Res.map _ (if _ then _ else _)
    split
    · simp only [pread, readNative, if_true, gread_swap, on]
      cases Rd.gread (readLE 16) g.bytes 22 <;> rfl
    · rfl
  | err e => rfl
  | panic => rfl

private theorem rsn_body_big : readRsnBodyOn true = on swapRsn readRsnBody := by
  unfold readRsnBody readRsnBodyOn
  simp only [on_bind, readNative, if_true, greadOk_swap]
  refine congrArg _ (funext fun x => ?_)
  cases x with
  | none => rfl
  | some x =>
  simp only [on_bind]
  refine congrArg _ (funext fun x => ?_)
  cases x with
  | none => rfl
  | some x =>
  simp only [on_bind]
  refine congrArg _ (funext fun x => ?_)
  cases x with
  | none => rfl
  | some x =>
  simp only [on_bind, on_bind_arg]
  refine congrArg _ (funext fun x => ?_)
  cases x with
  | none => rfl
  | some x =>
  simp only [on_bind, Option.map]
  refine congrArg _ (funext fun x => ?_)
  cases x with
  | none => rfl
  | some x =>
  simp only [on_bind]
  refine congrArg _ (funext fun x => ?_)
  cases x <;> rfl

/-- RSN elements: the same bytes are accepted, with the same outcome, but with the bytes of the capabilities
exchanged. -/
theorem c71_rsn (inp : Bytes) : readRsnOn true inp = (readRsn inp).map fun r => (swapRsn r.1, r.2) := by
  unfold readRsn readRsnOn
  rw [← run_on, on_bind, rsn_body_big]
  congr 2
  funext v
  split <;> rfl

/-- The mesh peering element is read with the bytes of protocol and local link ID exchanged. -/
theorem c71_mesh_read (inp : Bytes) : readMeshPeeringOn true inp =
    (readMeshPeering inp).map fun r => (swapPeering r.1, r.2) := by
  unfold readMeshPeering readMeshPeeringOn
  rw [← run_on]
  simp only [readNative, if_true, gread_swap, on_bind, on_bind_arg, on_pure, swapPeering,
    MeshPeeringProtocolIdentifier.intoBits_fromBits]

/-- The mesh peering element is written with the bytes of protocol and local link ID exchanged. -/
theorem c71_mesh_write (e : MeshPeeringManagement) :
    writeMeshPeeringOn true e = writeMeshPeering (swapPeering e) := by
  unfold writeMeshPeering writeMeshPeeringOn
  simp only [writeNative, if_true, writeBE_swap, swapPeering,
    MeshPeeringProtocolIdentifier.intoBits_fromBits]
  rfl

omit [ScrollRule] in
private theorem parse_on {α β : Type} (f : α → β) (e : MeshPeeringManagement) (r : Rd α) :
    e.parse (on f r) = (e.parse r).map (Option.map f) := by
  unfold MeshPeeringManagement.parse
  rw [run_on]
  cases Rd.run r e.rest.val <;> rfl

/-- A confirm element is built and interpreted with the bytes of the peer link ID exchanged. -/
theorem c71_mesh_confirm (p : MeshPeeringProtocolIdentifier) (l peer : BitVec 16) (pmk : Option (Arr 16))
    (e : MeshPeeringManagement) :
    MeshPeeringManagement.newConfirmOn true p l peer pmk =
      MeshPeeringManagement.newConfirm p l (swap16 peer) pmk ∧
    e.parseAsConfirmOn true = e.parseAsConfirm.map (Option.map swapParsed) := by
  constructor
  · unfold MeshPeeringManagement.newConfirmOn MeshPeeringManagement.newConfirm
    simp only [writeNative, if_true, writeBE_swap]
  · unfold MeshPeeringManagement.parseAsConfirmOn MeshPeeringManagement.parseAsConfirm
    simp only [readNative, if_true, gread_swap, on_bind_arg]
    split
    · rw [← parse_on, on_bind]; rfl
    · split
      · rw [← parse_on, on_bind]; simp only [on_bind]; rfl
      · rfl

/-- A close element is built and interpreted with the bytes of the peer link ID and of the reason exchanged. -/
theorem c71_mesh_close (p : MeshPeeringProtocolIdentifier) (l : BitVec 16) (peer : Option (BitVec 16))
    (reason : IEEE80211Reason) (pmk : Option (Arr 16)) (e : MeshPeeringManagement) :
    MeshPeeringManagement.newCloseOn true p l peer reason pmk =
      MeshPeeringManagement.newClose p l (peer.map swap16) (swapReason reason) pmk ∧
    e.parseAsCloseOn true = e.parseAsClose.map (Option.map swapParsed) := by
  constructor
  · unfold MeshPeeringManagement.newCloseOn MeshPeeringManagement.newClose
    have h : MeshPeeringManagement.putPeerOn true peer = MeshPeeringManagement.putPeer (peer.map swap16) := by
      cases peer with
      | none => rfl
      | some x => simp [MeshPeeringManagement.putPeerOn, MeshPeeringManagement.putPeer, writeNative, writeBE_swap]
    simp only [h, writeNative, if_true, writeBE_swap, swapReason, IEEE80211Reason.intoBits_fromBits]
  · unfold MeshPeeringManagement.parseAsCloseOn MeshPeeringManagement.parseAsClose
    simp only [readNative, if_true, gread_swap, on_bind_arg]
    repeat' split
    all_goals first | rfl | rw [← parse_on]
    all_goals
      simp only [on_bind, on_pure, swapParsed, swapReason, Option.map, IEEE80211Reason.intoBits_fromBits]

/-! ## Consequences -/

/-- Data frame headers are written little-endian whatever the machine.  Read back on a big-endian machine, the
bytes of duration and sequence control are exchanged. -/
theorem c71_data_round_trip (h : DataFrameHeader) (hv : ValidData h) (hc : HeaderConsistent h) (rest : Bytes) :
    readDataHeaderOn true (frameStart (.Data h.subtype) h.fcf_flags ++ (dataHeaderWire h ++ rest)) =
      .ok (swapHeader h, 2 + (dataHeaderWire h).length) := by
  rw [header_big, c27_round_trip h hv hc rest]; rfl

omit [ScrollRule] in
/-- So a header survives exactly if both numbers have two equal bytes. -/
theorem c71_data_survives (h : DataFrameHeader) : swapHeader h = h ↔
    h.duration.extractLsb' 0 8 = h.duration.extractLsb' 8 8 ∧
    h.sequence_control.bits.extractLsb' 0 8 = h.sequence_control.bits.extractLsb' 8 8 := by
  rw [← c71_swap_same, ← c71_swap_same]
  obtain ⟨s, g, d, a1, a2, a3, ⟨sc⟩, a4, q, ht⟩ := h
  simp [swapHeader]

/-- Violation: on a big-endian machine a data frame header that is written is read back as another one: here
fragment number 1 of sequence number 0 becomes fragment number 0 of sequence number 16, and a duration of 44
becomes one of 11264. -/
theorem c71_data_wrong : ∃ h h' : DataFrameHeader, ∃ bs n,
    writeDataHeader h (List.replicate 40 0) = .ok (bs ++ List.replicate (40 - bs.length) 0, bs.length) ∧
    readDataHeaderOn true (frameStart (.Data h.subtype) h.fcf_flags ++ bs) = .ok (h', n) ∧
    h.duration = 44 ∧ h'.duration = 11264 ∧
    h.sequence_control.fragment_number = 1 ∧ h.sequence_control.sequence_number = 0 ∧
    h'.sequence_control.fragment_number = 0 ∧ h'.sequence_control.sequence_number = 16 := by
  let m (k : Byte) : Mac := ⟨[k, k, k, k, k, k], rfl⟩
  let h : DataFrameHeader := ⟨.Data, ⟨0⟩, 44, m 1, m 2, m 3, ⟨1⟩, none, none, none⟩
  refine ⟨h, swapHeader h, dataHeaderWire h, 24, ?_, ?_, by decide, by decide, by decide, by decide, by decide,
    by decide⟩
  · exact (c27_write h).ok (List.replicate 40 0) (by decide)
  · have := c71_data_round_trip h ⟨by decide, DataFrameSubtype.canonical_fromBits 0⟩ (by constructor <;> decide) []
    rw [List.append_nil] at this
    exact this

/-- RSN elements are written little-endian.  Read back on a big-endian machine, everything but the capabilities
is the same, and these have their bytes exchanged. -/
theorem c71_rsn_round_trip (e : RsnElement.OfLists) (hwf : RsnWf e) (hs : RsnSmall e)
    (hc : RsnCanonical e) (he : RsnEndOk e) (buf : Bytes) (hb : (rsnWire 4 e).length ≤ buf.length) :
    ∃ out n q, writeRsnLists e buf = .ok (out, n) ∧ readRsnOn true (out.take n) = .ok (q, n) ∧
      RsnSame q { e with rsn_capbilities := e.rsn_capbilities.map fun c => ⟨swap16 c.bits⟩ } := by
  obtain ⟨out, n, q, hw, hr, hq⟩ := c17_round_trip e hwf hs hc he buf hb
  obtain ⟨s1, s2, s3, s4, s5, s6⟩ := hq
  refine ⟨out, n, swapRsn q, hw, by rw [c71_rsn, hr]; rfl, s1, s2, s3, ?_, s5, s6⟩
  simp only [swapRsn, s4]

/-- Violation: on a big-endian machine the WPA3 element of this crate, in which both bits on management frame
protection are set, is read as one with this protection disabled. -/
theorem c71_rsn_wrong : ∃ out n q c c', writeRsnLists .WPA3_PERSONAL (List.replicate 40 0) = .ok (out, n) ∧
    readRsnOn true (out.take n) = .ok (q, n) ∧
    RsnElement.WPA3_PERSONAL.rsn_capbilities = some c ∧ c.mfp_config = 3 ∧
    q.rsn_capbilities = some c' ∧ c'.mfpConfig = .Disabled := by
  obtain ⟨out, n, q, hw, -, hr, hq⟩ := c17_constants_partial .WPA3_PERSONAL (by simp) (List.replicate 40 0)
    (by decide)
  refine ⟨out, n, swapRsn q, ⟨0xc0⟩, ⟨0xc000⟩, hw, by rw [c71_rsn, hr]; rfl, by decide, by decide, ?_, by decide⟩
  simp only [swapRsn, hq.2.2.2.1]
  decide

omit [ScrollRule] in
private theorem build_swap (p : MeshPeeringProtocolIdentifier) (l : BitVec 16) (w : Wr Unit)
    (e : MeshPeeringManagement)
    (h : MeshPeeringManagement.build (.fromBits (swap16 p.intoBits)) (swap16 l) w = .ok e) (hc : p.Canonical) :
    MeshPeeringManagement.build p l w = .ok (swapPeering e) ∧ swapPeering (swapPeering e) = e := by
  unfold MeshPeeringManagement.build at h ⊢
  cases hw : w (List.replicate 20 0) 0 with
  | ok r =>
    obtain ⟨u, rest, off⟩ := r
    simp only [hw] at h ⊢
    split at h
    · rename_i hr
      rw [dif_pos hr]
      cases h
      simp [swapPeering, MeshPeeringProtocolIdentifier.intoBits_fromBits, c71_swap_swap,
        MeshPeeringProtocolIdentifier.fromBits_intoBits _ hc]
    · cases h
  | err e => simp only [hw, reduceCtorEq] at h
  | panic => simp only [hw, reduceCtorEq] at h

/-- An interpreted element with the bytes of protocol and local link ID exchanged. -/
private def swapStart (q : ParsedMeshPeeringManagement) : ParsedMeshPeeringManagement :=
  { q with mesh_peering_protocol_identifier := .fromBits (swap16 q.mesh_peering_protocol_identifier.intoBits)
           local_link_id := swap16 q.local_link_id }

private theorem as_close_start (e : MeshPeeringManagement) :
    (swapPeering e).parseAsClose = e.parseAsClose.map (Option.map swapStart) := by
  unfold MeshPeeringManagement.parseAsClose
  simp only [apply_ite (Res.map _), ← parse_on, on_bind, on_pure]
  rfl

private theorem as_confirm_start (e : MeshPeeringManagement) :
    (swapPeering e).parseAsConfirm = e.parseAsConfirm.map (Option.map swapStart) := by
  unfold MeshPeeringManagement.parseAsConfirm
  simp only [apply_ite (Res.map _), ← parse_on, on_bind, on_pure]
  rfl

omit [ScrollRule] in
private theorem wire_big (p : MeshPeeringProtocolIdentifier) (l : BitVec 16) (peer : Option (BitVec 16))
    (reason : Option IEEE80211Reason) (pmk : Option (Arr 16)) :
    peeringWire ⟨.fromBits (swap16 p.intoBits), swap16 l, peer.map swap16, reason.map swapReason, pmk⟩ =
      nativePeeringWire true ⟨p, l, peer, reason, pmk⟩ := by
  cases peer <;> cases reason <;> cases pmk <;>
    simp [peeringWire, peeringTail, nativePeeringWire, nativeBytes, toBE_swap, swapReason,
      MeshPeeringProtocolIdentifier.intoBits_fromBits, IEEE80211Reason.intoBits_fromBits]

omit [ScrollRule] in
private theorem wire_little (q : ParsedMeshPeeringManagement) : peeringWire q = nativePeeringWire false q := by
  obtain ⟨p, l, a, b, c⟩ := q
  cases a <;> cases b <;> cases c <;> simp [peeringWire, peeringTail, nativePeeringWire, nativeBytes]

omit [ScrollRule] in
private theorem protocol_back (p : MeshPeeringProtocolIdentifier) (hc : p.Canonical) :
    MeshPeeringProtocolIdentifier.fromBits (swap16 (MeshPeeringProtocolIdentifier.fromBits
      (swap16 p.intoBits)).intoBits) = p := by
  rw [MeshPeeringProtocolIdentifier.intoBits_fromBits, c71_swap_swap,
    MeshPeeringProtocolIdentifier.fromBits_intoBits _ hc]

omit [ScrollRule] in
private theorem reason_back (r : IEEE80211Reason) (hc : r.Canonical) : swapReason (swapReason r) = r := by
  rw [swapReason, swapReason, IEEE80211Reason.intoBits_fromBits, c71_swap_swap,
    IEEE80211Reason.fromBits_intoBits _ hc]

/-- Mesh peering close on one machine, of either kind: what is built and written is read back as given.  The
bytes are in the order of the machine. -/
theorem c71_close_same_machine (big : Bool) (p : MeshPeeringProtocolIdentifier) (l : BitVec 16)
    (peer : Option (BitVec 16)) (reason : IEEE80211Reason) (pmk : Option (Arr 16)) (hc : p.Canonical)
    (hr : reason.Canonical) (buf : Bytes) (hb : 25 ≤ buf.length) :
    ∃ e out e' n, MeshPeeringManagement.newCloseOn big p l peer reason pmk = .ok e ∧
      writeMeshPeeringOn big e buf = .ok (out, n) ∧
      out.take n = nativePeeringWire big ⟨p, l, peer, some reason, pmk⟩ ∧
      readMeshPeeringOn big (out.take n) = .ok (e', 4) ∧
      e'.parseAsCloseOn big = .ok (some ⟨p, l, peer, some reason, pmk⟩) := by
  cases big with
  | false =>
    have hl := c71_little
    obtain ⟨e, out, e', n, h1, h2, h3, h4, h5⟩ := c19_close p l peer reason pmk hc hr buf hb
    exact ⟨e, out, e', n, by rw [hl.2.2.2.2.2.2.1, h1], h2, h3.trans (wire_little _), h4, h5⟩
  | true =>
    obtain ⟨e, out, e', n, h1, h2, h3, h4, h5⟩ := c19_close (.fromBits (swap16 p.intoBits)) (swap16 l)
      (peer.map swap16) (swapReason reason) pmk (MeshPeeringProtocolIdentifier.canonical_fromBits _)
      (IEEE80211Reason.canonical_fromBits _) buf hb
    obtain ⟨hb1, hb2⟩ := build_swap p l _ e h1 hc
    refine ⟨swapPeering e, out, swapPeering e', n, (c71_mesh_close p l peer reason pmk e).1.trans hb1,
      by rw [c71_mesh_write, hb2, h2], h3.trans (wire_big p l peer (some reason) pmk),
      by rw [c71_mesh_read, h4]; rfl, ?_⟩
    rw [(c71_mesh_close p l peer reason pmk _).2, as_close_start, h5]
    simp only [Res.map, Option.map, swapStart, swapParsed, protocol_back p hc, c71_swap_swap,
      reason_back reason hr]
    cases peer <;> simp [c71_swap_swap]

/-- Mesh peering confirm on one machine, of either kind: what is built and written is read back as given. -/
theorem c71_confirm_same_machine (big : Bool) (p : MeshPeeringProtocolIdentifier) (l peer : BitVec 16)
    (pmk : Option (Arr 16)) (hc : p.Canonical) (buf : Bytes) (hb : 25 ≤ buf.length) :
    ∃ e out e' n, MeshPeeringManagement.newConfirmOn big p l peer pmk = .ok e ∧
      writeMeshPeeringOn big e buf = .ok (out, n) ∧
      out.take n = nativePeeringWire big ⟨p, l, some peer, none, pmk⟩ ∧
      readMeshPeeringOn big (out.take n) = .ok (e', 4) ∧
      e'.parseAsConfirmOn big = .ok (some ⟨p, l, some peer, none, pmk⟩) := by
  cases big with
  | false =>
    obtain ⟨e, out, e', n, h1, h2, h3, h4, h5⟩ := c19_confirm p l peer pmk hc buf hb
    exact ⟨e, out, e', n, h1, h2, h3.trans (wire_little _), h4, h5⟩
  | true =>
    obtain ⟨e, out, e', n, h1, h2, h3, h4, h5⟩ := c19_confirm (.fromBits (swap16 p.intoBits)) (swap16 l)
      (swap16 peer) pmk (MeshPeeringProtocolIdentifier.canonical_fromBits _) buf hb
    obtain ⟨hb1, hb2⟩ := build_swap p l _ e h1 hc
    refine ⟨swapPeering e, out, swapPeering e', n, (c71_mesh_confirm p l peer pmk e).1.trans hb1,
      by rw [c71_mesh_write, hb2, h2], h3.trans (wire_big p l (some peer) none pmk),
      by rw [c71_mesh_read, h4]; rfl, ?_⟩
    rw [(c71_mesh_confirm p l peer pmk _).2, as_confirm_start, h5]
    simp only [Res.map, Option.map, swapStart, swapParsed, protocol_back p hc, c71_swap_swap]

/-- Violation: mesh peering close between two machines.  What a big-endian machine writes, a little-endian one
reads with the bytes of protocol, link IDs and reason exchanged (and so it does not find the link it is to close,
unless both bytes of its ID are the same). -/
theorem c71_close_other_machine (p : MeshPeeringProtocolIdentifier) (l : BitVec 16)
    (peer : Option (BitVec 16)) (reason : IEEE80211Reason) (pmk : Option (Arr 16)) (hc : p.Canonical)
    (hr : reason.Canonical) (buf : Bytes) (hb : 25 ≤ buf.length) :
    ∃ e out e' n, MeshPeeringManagement.newCloseOn true p l peer reason pmk = .ok e ∧
      writeMeshPeeringOn true e buf = .ok (out, n) ∧
      readMeshPeeringOn false (out.take n) = .ok (e', 4) ∧
      e'.parseAsCloseOn false = .ok (some ⟨.fromBits (swap16 p.intoBits), swap16 l, peer.map swap16,
        some (swapReason reason), pmk⟩) := by
  obtain ⟨e, out, e', n, h1, h2, h3, h4, h5⟩ := c71_close_same_machine true p l peer reason pmk hc hr buf hb
  obtain ⟨d, out', d', n', g1, g2, g3, g4, g5⟩ := c71_close_same_machine false (.fromBits (swap16 p.intoBits))
    (swap16 l) (peer.map swap16) (swapReason reason) pmk (MeshPeeringProtocolIdentifier.canonical_fromBits _)
      (IEEE80211Reason.canonical_fromBits _) buf hb
  refine ⟨e, out, d', n, h1, h2, ?_, g5⟩
  rw [h3, ← wire_big, Option.map_some, wire_little, ← g3, g4]

/-- A concrete case: the protocol 1 becomes the unknown 256, and the reason "peering cancelled" (52) an unknown one. -/
theorem c71_close_wrong : ∃ e out e' n,
    MeshPeeringManagement.newCloseOn true .AuthenticatedMeshPeeringExchangeProtocol 0x102 (some 0x304) .MeshPeeringCancelled none =
      .ok e ∧
    writeMeshPeeringOn true e (List.replicate 30 0) = .ok (out, n) ∧
    readMeshPeeringOn false (out.take n) = .ok (e', 4) ∧
    e'.parseAsCloseOn false = .ok (some ⟨.Unknown 256, 0x201, some 0x403, some (.Unknown 0x3400), none⟩) := by
  exact c71_close_other_machine .AuthenticatedMeshPeeringExchangeProtocol 0x102 (some 0x304) .MeshPeeringCancelled none
    (MeshPeeringProtocolIdentifier.canonical_fromBits 1) (IEEE80211Reason.canonical_fromBits 52)
    (List.replicate 30 0) (by decide)

/-! ## Examples -/

/-- The bytes of 0x1234 are exchanged; those of 0x1212 are the same. -/
example : swap16 0x1234 = 0x3412 ∧ swap16 0x1212 = 0x1212 := by decide

/-- A management frame with sequence number 0x123 and fragment number 4, read generically on either machine. -/
example : let g : GenericFrame := ⟨[0x80, 0, 0, 0] ++ List.replicate 18 0 ++ [0x34, 0x12]⟩
    g.sequenceControlOn false = .ok (some ⟨0x1234⟩) ∧ g.sequenceControlOn true = .ok (some ⟨0x3412⟩) := by
  cases ‹ScrollRule› with | mk s => cases s <;> decide +kernel

/-- A confirm element on a big-endian machine. -/
example : nativePeeringWire true ⟨.AuthenticatedMeshPeeringExchangeProtocol, 0x102, some 0x304, none, none⟩ =
    [0, 1, 1, 2, 3, 4] ∧
    nativePeeringWire false ⟨.AuthenticatedMeshPeeringExchangeProtocol, 0x102, some 0x304, none, none⟩ =
    [1, 0, 2, 1, 4, 3] := by decide

end Verif
