import Verif.Lemmas.Steady
import Verif.Props.C32
import Verif.Props.C73
/-!
# C76: a larger buffer never changes what is written, and writing does not panic

Whatever is written: if it fits into a buffer, every buffer that is at least as long holds it as well, with the same
bytes and the rest untouched.  There is one size from which on it fits.  Failure is an error, not a panic.
-/
namespace Verif

namespace Spec

/-- Once it fits, it fits into every longer buffer, and is the same. -/
def Settled (w : Writer) : Prop := ∀ (b b' out : Bytes) (n : Nat), w b = .ok (out, n) → b.length ≤ b'.length →
  n ≤ b.length ∧ out.length = b.length ∧ w b' = .ok (out.take n ++ b'.drop n, n)

/-- The part of the array that a bitmap consists of is inside the array. -/
def InArray : TIMBits → Prop
  | .slice _ => True
  | .static a n2 => n2 < a.length
  | .const a n1 n2 => n1 ≤ n2 + 1 ∧ n2 < a.length

variable [ScrollRule]

/-- Everything the crate can write, but for A-MSDUs; where a value contains a value of the user's own type, that
must be settled.  With `safe` set, only the values whose writing is claimed not to panic: bitmaps that lie within their
array, subtypes that fit their four bits, mesh peering elements as they are made by the constructors and the parser,
encrypted payloads without a MIC. -/
inductive Writing [Crc32] (safe : Bool) : Writer → Prop where
  | gtk (k : GtkKde) : Writing safe (writeGtk k)
  | band (b : BandAndChannelInfo) : Writing safe (writeBandAndChannelInfo b)
  | owe (e : OWETransitionModeElement) : Writing safe (writeOWE e)
  | supportedRates (e : RatesElement) : Writing safe (writeSupportedRates e)
  | extendedRates (e : RatesElement) : Writing safe (writeExtendedSupportedRates e)
  | timBits (b : TIMBits) (hs : safe = true → InArray b) : Writing safe (writeTIMBits b)
  | timBitmap (b : TIMBitmap) (hs : safe = true → ∀ x, b.partial_virtual_bitmap = some x → InArray x) :
    Writing safe (writeTIMBitmap b)
  | tim (e : TIMElement) (hs : safe = true → ∀ b x, e.bitmap = some b → b.partial_virtual_bitmap = some x → InArray x) :
    Writing safe (writeTIM e)
  | dsss (e : DSSSParameterSetElement) : Writing safe (writeDSSS e)
  | ibss (e : IBSSParameterSetElement) : Writing safe (writeIBSS e)
  | bssLoad (e : BSSLoadElement) : Writing safe (writeBSSLoad e)
  | ssid (e : SSIDLikeElement) : Writing safe (writeSSID e)
  | vhtCapabilities (e : VHTCapabilitiesElement) : Writing safe (writeVHTCapabilities e)
  | vhtOperation (e : VHTOperationElement) : Writing safe (writeVHTOperation e)
  | mcsSet (s : SupportedMCSSet) : Writing safe (writeSupportedMCSSet s)
  | htCapabilities (e : HTCapabilitiesElement) : Writing safe (writeHTCapabilities e)
  | htOperation (e : HTOperationElement) : Writing safe (writeHTOperation e)
  | meshConfiguration (e : MeshConfigurationElement) : Writing safe (writeMeshConfiguration e)
  | meshPeering (e : MeshPeeringManagement) (hs : safe = true → e.rest_len ≤ 20) : Writing safe (writeMeshPeering e)
  | cipherSuite (c : IEEE80211CipherSuiteSelector) : Writing safe (writeCipherSuite c)
  | akm (a : IEEE80211AkmType) : Writing safe (writeAkm a)
  | pmkid (p : Arr 16) : Writing safe (writePmkid p)
  | rsnLists (e : RsnElement.OfLists) : Writing safe (writeRsnLists e)
  | rsnParsed (e : RsnElement.Parsed) : Writing safe (writeRsnParsed e)
  | iterator (it : ReadIterator) : Writing safe (it.write)
  | rawElement (e : RawElement) : Writing safe (writeRawElement e)
  | rawExtElement (e : RawExtElement) : Writing safe (writeRawExtElement e)
  | bytes (bs : Bytes) : Writing safe ((bytesObj bs).write)
  | elements (bs : Bytes) : Writing safe ((elementsObj bs).write)
  | empty : Writing safe (emptyObj.write)
  | mgmtHeader (h : ManagementFrameHeader) : Writing safe (writeMgmtHeader h)
  | dataHeader (h : DataFrameHeader) : Writing safe (writeDataHeader h)
  | control (f : ControlFrame) : Writing safe (writeControlFrame f)
  | rawAction (b : RawActionBody) : Writing safe (writeRawAction b)
  | receivedPayload (p : DataFrameReadPayload) : Writing safe (writeDataFramePayload p)
  | cryptoHeader (h : CryptoHeader) : Writing safe (writeCryptoHeader h)
  | tlv (t : Byte) (p : Obj) (h : Writing safe p.write) : Writing safe (writeTLV t p)
  | extElement (t : Byte) (p : Obj) (h : Writing safe p.write) : Writing safe ((typedExtElement t p).write)
  | vendorPayload (pfx : Bytes) (p : Obj) (h : Writing safe p.write) :
    Writing safe ((prefixedVendorPayload pfx p).write)
  | vendorElement (p : Obj) (h : Writing safe p.write) : Writing safe ((vendorSpecificElement p).write)
  | element (e : Elem) (h : Writing safe e.obj.write) : Writing safe (e.writeWrapped)
  | lastTyped (e : Elem) (h : Writing safe e.obj.write) : Writing safe ((Chain.last (.typed e)).write)
  | lastRaw (e : RawElement) : Writing safe ((Chain.last (.raw e)).write)
  | linkTyped (e : Elem) (c : Chain) (h : Writing safe e.obj.write) (hc : Writing safe c.write) :
    Writing safe ((Chain.link (.typed e) c).write)
  | linkRaw (e : RawElement) (c : Chain) (hc : Writing safe c.write) : Writing safe ((Chain.link (.raw e) c).write)
  | associationRequest (b : AssociationRequestBody Obj) (h : Writing safe b.elements.write) :
    Writing safe (writeAssociationRequest b)
  | associationResponse (b : AssociationResponseBody Obj) (h : Writing safe b.elements.write) :
    Writing safe (writeAssociationResponse b)
  | authentication (b : AuthenticationBody Obj) (h : Writing safe b.elements.write) :
    Writing safe (writeAuthentication b)
  | beacon (b : BeaconLikeBody Obj) (h : Writing safe b.elements.write) : Writing safe (writeBeaconLike b)
  | disassociation (b : ReasonBody Obj) (h : Writing safe b.elements.write) : Writing safe (writeDisassociation b)
  | deauthentication (b : ReasonBody Obj) (h : Writing safe b.elements.write) : Writing safe (writeDeauthentication b)
  | probeRequest (b : ProbeRequestBody Obj) (h : Writing safe b.elements.write) : Writing safe (writeProbeRequest b)
  | vendorAction (b : VendorActionBody Obj) (h : Writing safe b.payload.write) : Writing safe (writeVendorAction b)
  | meshOpen (b : MeshPeeringOpenBody Obj) (h : Writing safe b.elements.write) : Writing safe (writeMeshPeeringOpen b)
  | meshConfirm (b : MeshPeeringConfirmBody Obj) (h : Writing safe b.elements.write) :
    Writing safe (writeMeshPeeringConfirm b)
  | meshClose (b : MeshPeeringCloseBody Obj) (h : Writing safe b.elements.write) :
    Writing safe (writeMeshPeeringClose b)
  | mgmtFrame (s : ManagementFrameSubtype) (hd : ManagementFrameHeader) (w : Writer) (h : Writing safe w) (fcs : Bool)
    (hs : safe = true → s.intoBits.toNat < 16) : Writing safe (writeMgmtFrame s hd w fcs)
  | dataFrame (f : DataFrame Obj) (h : ∀ p, f.payload = some p → Writing safe p.write) (fcs : Bool)
    (hs : safe = true → f.header.subtype.intoBits.toNat < 16) : Writing safe (writeDataFrame f fcs)
  | eapol (f : EapolKeyFrame Obj) (h : Writing safe f.key_data.write) : Writing safe (writeEapolKeyFrame f)
  | snap (f : SnapLlcFrame Obj) (h : Writing safe f.payload.write) : Writing safe (writeSnap f)
  | cryptoWrapper (c : CryptoWrapper Obj) (h : Writing safe c.payload.write)
    (hs : safe = true → c.mic_state = .NotPresent) : Writing safe (writeCryptoWrapper c)
  | user (w : Writer) (h : Settled w) (hs : safe = true → ∀ b, w b ≠ .panic) : Writing safe (w)

end Spec

open Spec

variable [ScrollRule]

/-- Split a writer into its parts. -/
macro "fine" : tactic => `(tactic| repeat' first
  | assumption
  | exact Fine.bytes _ _ | exact Fine.le _ _ | exact Fine.be _ _ | exact Fine.u8 _ _ | exact Fine.empty _
  | exact WFine.pure _ _
  | apply WFine.seq | apply WFine.gwrite | apply WFine.bind | apply WFine.opt | apply WFine.ite
  | apply Fine.pwrite0 | apply Fine.run
  | intro)

private theorem gwriteAll_fine {α : Type} {safe : Bool} {w : α → Writer} (l : List α) (h : ∀ a, Fine safe (w a)) :
    WFine safe (gwriteAll w l) := by
  induction l with
  | nil => exact WFine.pure _ ()
  | cons a l ih => exact WFine.seq (WFine.gwrite (h a)) ih

private theorem rates_fine (safe : Bool) (l : List EncodedRate) : WFine safe (gwriteRates l) := by
  induction l with
  | nil => exact WFine.pure _ ()
  | cons a l ih => exact WFine.seq (WFine.gwrite (Fine.u8 _ _)) ih

private theorem suite_fine {safe : Bool} (c : IEEE80211CipherSuiteSelector) : Fine safe (writeCipherSuite c) := by
  unfold writeCipherSuite; fine

private theorem akm_fine {safe : Bool} (c : IEEE80211AkmType) : Fine safe (writeAkm c) := by
  unfold writeAkm; fine

private theorem pmkid_fine {safe : Bool} (c : Arr 16) : Fine safe (writePmkid c) := by
  unfold writePmkid; fine

private theorem iter_fine {safe : Bool} (it : ReadIterator) : Fine safe it.write := by
  unfold ReadIterator.write; fine


private theorem rsnList_fine {safe : Bool} {w : Writer} (h : Fine safe w) : WFine safe (writeRsnList w) := by
  rw [writeRsnList_holed]
  exact WFine.holed (WFine.gwrite h) (PastErr.gwrite w) (fun i j bs hb => by cases hb; simp) fun _ _ _ _ h => by cases h

private theorem rsn_fine {safe : Bool} {P A M : Type} {wp : P → Writer} {wa : A → Writer} {wm : M → Writer} (hp : ∀ x, Fine safe (wp x))
    (ha : ∀ x, Fine safe (wa x)) (hm : ∀ x, Fine safe (wm x)) (e : RsnElement P A M) : Fine safe (writeRsn wp wa wm e) := by
  unfold writeRsn
  refine Fine.run (WFine.seq (WFine.gwrite (Fine.le _ _)) ?_)
  split
  · exact WFine.pure _ _
  refine WFine.seq (WFine.gwrite (suite_fine _)) ?_
  split
  · exact WFine.pure _ _
  refine WFine.seq (rsnList_fine (hp _)) ?_
  split
  · exact WFine.pure _ _
  refine WFine.seq (rsnList_fine (ha _)) ?_
  split
  · exact WFine.pure _ _
  refine WFine.seq (WFine.gwrite (Fine.le _ _)) ?_
  split
  · exact WFine.pure _ _
  refine WFine.seq (rsnList_fine (hm _)) ?_
  split
  · exact WFine.pure _ _
  exact WFine.gwrite (suite_fine _)

private theorem fixed_fine {safe : Bool} {κ : Type} (f : EapolKeyFrame κ) : WFine safe (writeEapolFixed f) := by
  unfold writeEapolFixed; fine


omit [ScrollRule] in
private theorem eapolSize_total (m off : Nat) (h : m + 2 ≤ off) : (do
    let n ← Res.sub off m
    let k ← Res.sub n 2
    pure (toBE (BitVec.ofNat 16 k)) : Res Bytes) ≠ .panic := by
  rw [Res.sub, if_pos (by omega), Res.ok_bind, Res.sub, if_pos (by omega), Res.ok_bind]
  intro h; cases h

private theorem eapol_fine {safe : Bool} (f : EapolKeyFrame Obj) (h : Fine safe f.key_data.write) :
    Fine safe (writeEapolKeyFrame f) := by
  rw [writeEapolKeyFrame_holed]
  refine Fine.run (WFine.seq (WFine.gwrite (Fine.u8 _ _)) (WFine.seq (WFine.gwrite (Fine.u8 _ _)) ?_))
  refine WFine.holed (WFine.seq (fixed_fine f) ?_) (PastErr.bind ?_) eapolSize_length fun _ => eapolSize_total
  · exact WFine.holed (WFine.gwrite h) (PastErr.gwrite _) eapolSize_length fun _ => eapolSize_total
  · unfold writeEapolFixed
    exact PastErr.bind (PastErr.gwrite _)

private theorem bits_fine {safe : Bool} (b : TIMBits) (hs : safe = true → InArray b) : Fine safe (writeTIMBits b) := by
  have h : ∀ b : TIMBits, (safe = true → b.asBytes ≠ .panic) → Fine safe (fun buf => do
      let bytes ← b.asBytes
      pwrite (writeBytes bytes) 0 buf) := by
    intro b hp
    cases hb : b.asBytes with
    | ok bs => exact Fine.pwrite0 (Fine.bytes _ bs)
    | err e => exact ⟨fun t out k hk => (by cases hk), fun _ t ht => (by cases ht)⟩
    | panic => exact ⟨fun t out k hk => (by cases hk), fun hs => absurd hb (hp hs)⟩
  cases b with
  | slice bs => exact Fine.bytes _ bs
  | static bs n2 =>
    refine h _ fun hp => ?_
    have := hs hp
    simp only [InArray] at this
    rw [TIMBits.asBytes, if_pos this]
    intro h; cases h
  | const bs n1 n2 =>
    refine h _ fun hp => ?_
    have := hs hp
    simp only [InArray] at this
    rw [TIMBits.asBytes, if_pos this]
    intro h; cases h

private theorem bitmap_fine {safe : Bool} (b : TIMBitmap)
    (hs : safe = true → ∀ x, b.partial_virtual_bitmap = some x → InArray x) : Fine safe (writeTIMBitmap b) := by
  unfold writeTIMBitmap
  refine Fine.run ?_
  split
  · rename_i bits hb
    exact WFine.seq (WFine.gwrite (Fine.u8 _ _)) (WFine.gwrite (bits_fine _ fun h => hs h _ hb))
  · fine

private theorem tim_fine {safe : Bool} (e : TIMElement)
    (hs : safe = true → ∀ b x, e.bitmap = some b → b.partial_virtual_bitmap = some x → InArray x) :
    Fine safe (writeTIM e) := by
  unfold writeTIM
  refine Fine.run (WFine.bind (WFine.lift fun _ h => by
      unfold checkDtimParameters at h; split at h <;> cases h) fun _ => WFine.seq (WFine.gwrite (Fine.u8 _ _))
    (WFine.seq (WFine.gwrite (Fine.u8 _ _)) ?_))
  split
  · rename_i b hb
    exact WFine.ite (WFine.pure _ _) (WFine.gwrite (bitmap_fine _ fun h x => hs h b x hb))
  · exact WFine.pure _ _

private theorem tlv_fine {safe : Bool} (t : Byte) (p : Obj) (h : Fine safe p.write) : Fine safe (writeTLV t p) := by
  unfold writeTLV
  refine Fine.run (WFine.seq (WFine.gwrite (Fine.u8 _ _)) (WFine.bind (WFine.lift fun _ h => by
    split at h <;> cases h) fun _ => WFine.seq (WFine.gwrite (Fine.u8 _ _)) (WFine.gwrite ‹_›)))

private theorem ext_fine {safe : Bool} (t : Byte) (p : Obj) (h : Fine safe p.write) : Fine safe (typedExtElement t p).write := by
  unfold typedExtElement; fine

private theorem prefixed_fine {safe : Bool} (t : Bytes) (p : Obj) (h : Fine safe p.write) :
    Fine safe (prefixedVendorPayload t p).write := by
  unfold prefixedVendorPayload; fine

private theorem vendor_fine {safe : Bool} (p : Obj) (h : Fine safe p.write) : Fine safe (vendorSpecificElement p).write := by
  unfold vendorSpecificElement; fine

private theorem wrapped_fine {safe : Bool} (e : Elem) (h : Fine safe e.obj.write) : Fine safe e.writeWrapped := by
  unfold Elem.writeWrapped
  split
  · exact Fine.pwrite0 (tlv_fine _ _ h)
  · exact Fine.pwrite0 (tlv_fine _ _ (ext_fine _ _ h))
  · exact Fine.pwrite0 (tlv_fine _ _ (vendor_fine _ (prefixed_fine _ _ h)))

private theorem raw_fine {safe : Bool} (e : RawElement) : Fine safe (writeRawElement e) := tlv_fine _ _ (Fine.bytes _ _)

private theorem mcs_fine {safe : Bool} (s : SupportedMCSSet) : Fine safe (writeSupportedMCSSet s) := by
  unfold writeSupportedMCSSet; fine

private theorem mgmtHeader_fine {safe : Bool} (h : ManagementFrameHeader) : Fine safe (writeMgmtHeader h) := by
  unfold writeMgmtHeader; fine

private theorem dataHeader_fine {safe : Bool} (h : DataFrameHeader) : Fine safe (writeDataHeader h) := by
  unfold writeDataHeader; fine

private theorem cryptoHeader_fine {safe : Bool} (h : CryptoHeader) : Fine safe (writeCryptoHeader h) := by
  unfold writeCryptoHeader; fine


omit [ScrollRule] in
private theorem kseq [Crc32] {safe : Bool} {p q : Wr Unit} (h : WFine safe p) (hq : KFine safe q) :
    KFine safe (p >>= fun _ => q) := h.known.bind fun _ => hq

omit [ScrollRule] in
private theorem type_fits (t : FrameType) (h : t.intoBits.toNat < 64) :
    FrameControlField.withFrameType ⟨0⟩ t ≠ .panic := by
  rw [FrameControlField.withFrameType, fitField, if_pos h]
  intro h; cases h

omit [ScrollRule] in
private theorem mgmt_small (s : ManagementFrameSubtype) (h : s.intoBits.toNat < 16) :
    (FrameType.Management s).intoBits.toNat < 64 := by
  simp only [FrameType.intoBits]
  generalize s.intoBits = x at *
  revert x
  decide

omit [ScrollRule] in
private theorem data_small (s : DataFrameSubtype) (h : s.intoBits.toNat < 16) :
    (FrameType.Data s).intoBits.toNat < 64 := by
  simp only [FrameType.intoBits]
  generalize s.intoBits = x at *
  revert x
  decide

private theorem writing_fine [Crc32] {safe : Bool} {w : Writer} (h : Writing safe w) : Fine safe w := by
  induction h with
  | gtk k => unfold writeGtk; fine
  | band b => unfold writeBandAndChannelInfo; fine
  | owe e =>
    unfold writeOWE writeBandAndChannelInfo
    refine Fine.run (WFine.seq (WFine.gwrite (Fine.bytes _ _)) (WFine.seq (WFine.gwrite (Fine.u8 _ _))
      (WFine.seq (WFine.gwrite (Fine.bytes _ _)) ?_)))
    split <;> fine
  | supportedRates e => exact Fine.run (rates_fine _ _)
  | extendedRates e => exact Fine.run (rates_fine _ _)
  | timBits b hs => exact bits_fine b hs
  | timBitmap b hs => exact bitmap_fine b hs
  | tim e hs => exact tim_fine e hs
  | dsss e => unfold writeDSSS; fine
  | ibss e => unfold writeIBSS; fine
  | bssLoad e => unfold writeBSSLoad; fine
  | ssid e => unfold writeSSID; fine
  | vhtCapabilities e => unfold writeVHTCapabilities; fine
  | vhtOperation e => unfold writeVHTOperation; fine
  | mcsSet s => exact mcs_fine s
  | htCapabilities e =>
    have := mcs_fine (safe := safe) e.supported_mcs_set
    unfold writeHTCapabilities; fine
  | htOperation e =>
    have := mcs_fine (safe := safe) e.basic_ht_mcs_set
    unfold writeHTOperation; fine
  | meshConfiguration e => unfold writeMeshConfiguration; fine
  | meshPeering e hs =>
    unfold writeMeshPeering
    refine Fine.run ?_
    repeat' first
      | exact Fine.le _ _
      | exact Fine.bytes _ _
      | exact Fine.u8 _ _
      | refine WFine.lift fun h hp => ?_
      | apply WFine.gwrite
      | apply WFine.bind
      | intro
    rw [if_pos (hs h)] at hp
    cases hp
  | cipherSuite c => exact suite_fine c
  | akm a => exact akm_fine a
  | pmkid p => exact pmkid_fine p
  | rsnLists e =>
    exact rsn_fine (fun l => Fine.run (gwriteAll_fine l suite_fine)) (fun l => Fine.run (gwriteAll_fine l akm_fine))
      (fun l => Fine.run (gwriteAll_fine l pmkid_fine)) e
  | rsnParsed e => exact rsn_fine iter_fine iter_fine iter_fine e
  | iterator it => exact iter_fine it
  | rawElement e => exact raw_fine e
  | rawExtElement e => unfold writeRawExtElement; fine
  | bytes bs => exact Fine.bytes _ bs
  | elements bs => exact Fine.pwrite0 (Fine.bytes _ bs)
  | empty => exact Fine.empty _
  | mgmtHeader h => exact mgmtHeader_fine h
  | dataHeader h => exact dataHeader_fine h
  | control f => cases f <;> unfold writeControlFrame <;> fine
  | rawAction b => unfold writeRawAction; fine
  | receivedPayload p => cases p <;> unfold writeDataFramePayload <;> fine
  | cryptoHeader h => exact cryptoHeader_fine h
  | tlv t p _ h => exact tlv_fine t p h
  | extElement t p _ h => exact ext_fine t p h
  | vendorPayload pfx p _ h => exact prefixed_fine pfx p h
  | vendorElement p _ h => exact vendor_fine p h
  | element e _ h => exact wrapped_fine e h
  | lastTyped e _ h => exact Fine.pwrite0 (wrapped_fine e h)
  | lastRaw e => exact Fine.pwrite0 (raw_fine e)
  | linkTyped e c _ _ h hc => exact Fine.run (WFine.seq (WFine.gwrite (wrapped_fine e h)) (WFine.gwrite hc))
  | linkRaw e c _ hc => exact Fine.run (WFine.seq (WFine.gwrite (raw_fine e)) (WFine.gwrite hc))
  | associationRequest b _ h => unfold writeAssociationRequest; fine
  | associationResponse b _ h => unfold writeAssociationResponse; fine
  | authentication b _ h => unfold writeAuthentication; fine
  | beacon b _ h => unfold writeBeaconLike; fine
  | disassociation b _ h => unfold writeDisassociation; fine
  | deauthentication b _ h => unfold writeDeauthentication; fine
  | probeRequest b _ h => exact h
  | vendorAction b _ h => unfold writeVendorAction appendVendorActionHeader; fine
  | meshOpen b _ h => unfold writeMeshPeeringOpen; fine
  | meshConfirm b _ h => unfold writeMeshPeeringConfirm; fine
  | meshClose b _ h => unfold writeMeshPeeringClose; fine
  | mgmtFrame s hd w _ fcs hs h =>
    unfold writeMgmtFrame
    exact Fine.runKnown ((WFine.lift fun h => type_fits _ (mgmt_small s (hs h))).known.bind fun _ => kseq (WFine.gwrite (Fine.le _ _))
      (kseq (WFine.gwrite (mgmtHeader_fine _)) (kseq (WFine.gwrite h) (KFine.fcsIf _ fcs))))
  | dataFrame f _ fcs hs h =>
    unfold writeDataFrame
    exact Fine.runKnown ((WFine.lift fun h => type_fits _ (data_small _ (hs h))).known.bind fun _ => kseq (WFine.gwrite (Fine.le _ _))
      (kseq (WFine.gwrite (dataHeader_fine _)) (kseq (WFine.opt h) (KFine.fcsIf _ fcs))))
  | eapol f _ h => exact eapol_fine f h
  | snap f _ h => unfold writeSnap; fine
  | cryptoWrapper c _ hs h =>
    unfold writeCryptoWrapper
    refine Fine.run (WFine.seq (WFine.gwrite (cryptoHeader_fine _)) (WFine.seq (WFine.gwrite h) ?_))
    cases safe with
    | false => exact WFine.zeros _
    | true => rw [hs rfl]; exact WFine.nothing true
  | user w h hs =>
    refine ⟨fun t out k hk => ⟨out.take k, ?_, fun t' ht => ?_⟩, hs⟩
    · have := (h t t out k hk (Nat.le_refl _)).1
      rw [List.length_take]; omega
    · obtain ⟨h1, h3, h2⟩ := h t t' out k hk ht
      have hl : (out.take k).length = k := by rw [List.length_take]; omega
      rw [h2, hl]


private theorem forM_fine {α : Type} {safe : Bool} {f : α → Writer} (l : List α) (h : ∀ a ∈ l, Fine safe (f a)) :
    WFine safe (l.forM fun a => Wr.gwrite (f a)) := by
  induction l with
  | nil => exact WFine.pure _ ()
  | cons a l ih =>
    exact WFine.seq (WFine.gwrite (h a List.mem_cons_self)) (ih fun b hb => h b (List.mem_cons_of_mem _ hb))

omit [ScrollRule] in
private theorem settled_of_fine {safe : Bool} {w : Writer} (h : Fine safe w) : Settled w := by
  intro b b' out n hw hb
  obtain ⟨bs, hl, g⟩ := h.1 b out n hw
  have h0 := g b (Nat.le_refl _)
  rw [hw] at h0
  cases h0
  exact ⟨hl, by simp; omega, by rw [g b' hb, List.take_left]⟩

/-- Whatever is written with any of the writers listed: what fits into a buffer fits into every longer one, and the same
bytes are written. -/
theorem c76_settled [Crc32] {safe : Bool} {w : Writer} (h : Writing safe w) : Settled w :=
  settled_of_fine (writing_fine h)

/-- None of the writers listed as safe ever panics, whatever the buffer.  (The full statement has no exceptions; they
are `c76_subtype_panics`, `c76_bitmap_panics` and `c76_mic_panics`.) -/
theorem c76_no_panic_partial [Crc32] {w : Writer} (h : Writing true w) (b : Bytes) : w b ≠ .panic :=
  (writing_fine h).2 rfl b

omit [ScrollRule] in
private theorem threshold {w : Writer} (h : Settled w) (b : Bytes) : ∀ k : Nat, b.length ≤ k → (∃ x, w b = .ok x) →
    ∃ (size : Nat) (bs : Bytes), bs.length ≤ size ∧
      (∀ b : Bytes, size ≤ b.length → w b = .ok (bs ++ b.drop bs.length, bs.length)) ∧
      (∀ b : Bytes, b.length < size → ∀ x, w b ≠ .ok x) := by
  intro k
  induction k generalizing b with
  | zero =>
    rintro hk ⟨⟨out, n⟩, hx⟩
    have h0 := h b b out n hx (Nat.le_refl _)
    have hn : n = 0 := by omega
    subst hn
    exact ⟨0, [], Nat.le_refl _, fun b' _ => by
      have := (h b b' out 0 hx (by omega)).2.2
      simpa using this, fun b' hb => absurd hb (Nat.not_lt_zero _)⟩
  | succ k ih =>
    rintro hk ⟨⟨out, n⟩, hx⟩
    by_cases hs : ∃ b' : Bytes, b'.length < b.length ∧ ∃ x, w b' = .ok x
    · obtain ⟨b', hl, hb'⟩ := hs
      exact ih b' (by omega) hb'
    · have h0 := h b b out n hx (Nat.le_refl _)
      have hl : (out.take n).length = n := by rw [List.length_take]; omega
      refine ⟨b.length, out.take n, by omega, fun b' hb => ?_, fun b' hb x hw => hs ⟨b', hb, x, hw⟩⟩
      rw [hl]
      exact (h b b' out n hx hb).2.2

/-- There is one size: in smaller buffers writing fails, in all others it succeeds with the same bytes. -/
theorem c76_size [Crc32] {safe : Bool} {w : Writer} (h : Writing safe w) :
    (∀ b x, w b ≠ .ok x) ∨
    ∃ (size : Nat) (bs : Bytes), bs.length ≤ size ∧
      (∀ b : Bytes, size ≤ b.length → w b = .ok (bs ++ b.drop bs.length, bs.length)) ∧
      (∀ b : Bytes, b.length < size → ∀ x, w b ≠ .ok x) := by
  by_cases hx : ∃ b x, w b = .ok x
  · obtain ⟨b, hb⟩ := hx
    exact .inr (threshold (c76_settled h) b b.length (Nat.le_refl _) hb)
  · exact .inl fun b x hw => hx ⟨b, x, hw⟩

/-- The same for a management frame to which elements are added later. -/
theorem c76_dynamic [Crc32] {safe : Bool} (s : ManagementFrameSubtype) (h : ManagementFrameHeader) (w : Writer)
    (es : List Elem) (fcs : Bool) (hw : Writing safe w) (he : ∀ e ∈ es, Writing safe e.obj.write)
    (hs : safe = true → s.intoBits.toNat < 16) :
    Settled (dynamicRun s h w es fcs) ∧ (safe = true → ∀ b, dynamicRun s h w es fcs b ≠ .panic) := by
  have hf : Fine safe (dynamicRun s h w es fcs) := by
    rw [dynamicRun_eq]
    exact Fine.runKnown (kseq (WFine.gwrite (writing_fine (.mgmtFrame s h w hw false hs)))
      (kseq (forM_fine es fun e hm => wrapped_fine e (writing_fine (he e hm))) (KFine.fcsIf _ fcs)))
  exact ⟨settled_of_fine hf, hf.2⟩

/-! ## Where writing panics -/

omit [ScrollRule] in
private theorem type_panics (t : FrameType) (h : 64 ≤ t.intoBits.toNat) :
    FrameControlField.withFrameType ⟨0⟩ t = .panic := by
  rw [FrameControlField.withFrameType, fitField, if_neg (by omega)]
  rfl

/-- Violation: a management frame with a subtype number that does not fit four bits panics, whatever the buffer. -/
theorem c76_subtype_panics [Crc32] (s : BitVec 8) (hs : 16 ≤ s.toNat ∧ s.toNat < 64) (h : ManagementFrameHeader)
    (w : Writer) (fcs : Bool) (b : Bytes) : writeMgmtFrame (.Unknown s) h w fcs b = .panic := by
  have : FrameControlField.withFrameType ⟨0⟩ (.Management (.Unknown s)) = .panic := by
    refine type_panics _ ?_
    simp only [FrameType.intoBits, ManagementFrameSubtype.intoBits]
    revert s
    decide
  rw [writeMgmtFrame, this]
  rfl

/-- Violation: a bitmap that reaches beyond its array panics, whatever the buffer. -/
theorem c76_bitmap_panics (a : Bytes) (n2 : Nat) (b : Bytes) :
    writeTIMBits (.static a n2) b = .panic ↔ ¬ InArray (.static a n2) := by
  simp only [writeTIMBits, TIMBits.asBytes, InArray]
  split
  · rename_i h
    refine ⟨fun hp => ?_, fun hn => absurd h hn⟩
    exact absurd hp ((Fine.pwrite0 (Fine.bytes true _)).2 rfl b)
  · rename_i h
    exact ⟨fun _ => h, fun _ => rfl⟩

/-- Violation: with room for header and payload but not for all of the MIC, writing panics. -/
theorem c76_mic_panics (h : CryptoHeader) (p b : Bytes) (m : MicState) (hp : p ≠ [])
    (hb : 8 + p.length ≤ b.length ∧ b.length < 8 + p.length + m.micLength) :
    writeCryptoWrapper ⟨h, bytesObj p, m⟩ b = .panic := by
  have := slack_le
  have : 0 < p.length := List.length_pos_iff.mpr hp
  exact c32_write_panics ⟨h, bytesObj p, m⟩ p p.length (Emits.bytes p) b (by omega) (by simpa using hb.2)

/-- Violation: an A-MSDU whose subframe needs padding says it wrote more than there is room for. -/
theorem c76_amsdu_unsettled (d s : Mac) (x : Byte) : ¬ Settled (writeAmsdu ([⟨d, s, [x]⟩].map toWrite)) := by
  intro h
  obtain ⟨out, ho, _⟩ := c30_write_beyond d s x (List.replicate 15 0) (by simp)
  have := (h _ _ _ _ ho (Nat.le_refl _)).1
  simp at this

/-! ## Cases -/

/-- A beacon with two elements and a check sequence. -/
example [Crc32] (h : ManagementFrameHeader) (ssid : SSIDLikeElement) (r : RatesElement) (b : Bytes) :
    writeMgmtFrame .Beacon h
      (writeBeaconLike ⟨1, 100, ⟨0⟩, (Chain.link (.typed (ssidElem ssid)) (.last (.typed (supportedRatesElem r)))).obj⟩)
      true b ≠ .panic :=
  c76_no_panic_partial (.mgmtFrame _ _ _ (.beacon _ (.linkTyped _ _ (.ssid ssid) (.lastTyped _ (.supportedRates r)))) _
    fun _ => by decide) b

/-- A data frame that carries an EAPOL frame with a group key. -/
example [Crc32] (h : DataFrameHeader) (hd : h.subtype = .QoSData) (s : SnapLlcFrame Obj) (k : EapolKeyFrame Obj)
    (g : GtkKde) (hk : k.key_data = (Chain.last (.typed (gtkElem g))).obj) (hs : s.payload = eapolObj k) (b : Bytes) :
    writeDataFrame ⟨h, some (snapObj s)⟩ true b ≠ .panic := by
  refine c76_no_panic_partial (.dataFrame _ (fun p hp => ?_) _ fun _ => ?_) b
  · cases hp
    refine .snap s ?_
    rw [hs]
    refine .eapol k ?_
    rw [hk]
    exact .lastTyped _ (.gtk g)
  · show h.subtype.intoBits.toNat < 16
    rw [hd]
    decide

/-- The size of a three byte SSID element is 5: from there on it is written, and before that it is an error. -/
example : letI : ScrollRule := ⟨false⟩
    (List.range 7).map (fun n => writeTLV 0 (bytesObj [1, 2, 3]) (List.replicate n 0xee)) =
      [.err .tooBig, .err .tooBig, .err .tooBig, .err .tooBig, .err .tooBig,
       .ok ([0, 3, 1, 2, 3], 5), .ok ([0, 3, 1, 2, 3, 0xee], 5)] := by
  decide

end Verif
