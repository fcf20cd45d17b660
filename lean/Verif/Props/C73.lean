import Verif.Lemmas.Blind
import Verif.Model.Elements.Vendor
import Verif.Props.C30
import Verif.Props.C39
/-!
# C73: nothing that a buffer held before is sent

Writers get a buffer with old contents.  What they write, how much, and whether they fail, must not depend on
these, and what is behind the bytes written must be left as it is.
-/
namespace Verif

namespace Spec

/-- Two runs on the buffers `b₁` and `b₂` that cannot be told apart by what was written: the same bytes at the
beginning, the rest as it was; or the same error; or both panic. -/
inductive SameRun (b₁ b₂ : Bytes) : Res (Bytes × Nat) → Res (Bytes × Nat) → Prop where
  | ok (bs : Bytes) (h₁ : bs.length ≤ b₁.length) (h₂ : bs.length ≤ b₂.length) :
    SameRun b₁ b₂ (.ok (bs ++ b₁.drop bs.length, bs.length)) (.ok (bs ++ b₂.drop bs.length, bs.length))
  | err (e : Err) : SameRun b₁ b₂ (.err e) (.err e)
  | panic : SameRun b₁ b₂ .panic .panic

/-- The contents of the buffer make no difference. -/
def Oblivious (w : Writer) : Prop := ∀ b₁ b₂ : Bytes, b₁.length = b₂.length → SameRun b₁ b₂ (w b₁) (w b₂)

end Spec

open Spec

section

/-- The outcome for each length. -/
theorem oblivious_iff_blind (w : Writer) : Oblivious w ↔ Blind w := by
  constructor
  · intro h n
    have h0 := fun t (ht : t.length = n) => h (List.replicate n 0) t (by rw [ht, List.length_replicate])
    generalize hw : w (List.replicate n 0) = x at h0
    cases x with
    | err e => exact .inl ⟨e, fun t ht => by have := h0 t ht; generalize w t = y at this; cases this; rfl⟩
    | panic => exact .inr (.inl fun t ht => by have := h0 t ht; generalize w t = y at this; cases this; rfl)
    | ok x =>
      obtain ⟨out, k⟩ := x
      have hk : k ≤ n := by
        have := h0 (List.replicate n 0) (by simp)
        generalize w (List.replicate n 0) = y at this
        cases this with
        | ok bs h₁ h₂ => simpa using h₁
      refine .inr (.inr ⟨out.take k, by rw [List.length_take]; omega, fun t ht => ?_⟩)
      have := h0 t ht
      generalize w t = y at this
      cases this with
      | ok bs h₁ h₂ => rw [List.take_left]
  · intro h b₁ b₂ hb
    rcases h b₁.length with ⟨e, h⟩ | h | ⟨bs, hl, h⟩
    · rw [h b₁ rfl, h b₂ hb.symm]; exact .err e
    · rw [h b₁ rfl, h b₂ hb.symm]; exact .panic
    · rw [h b₁ rfl, h b₂ hb.symm]; exact .ok bs hl (by omega)

end

variable [ScrollRule]

/-- Split a writer into its parts. -/
macro "blind" : tactic => `(tactic| repeat' first
  | assumption
  | exact Blind.bytes _ | exact Blind.le _ | exact Blind.be _ | exact Blind.u8 _ | exact Blind.empty
  | exact WBlind.pure _ | exact WBlind.lift _ | exact WBlind.zeros _
  | apply WBlind.seq | apply WBlind.gwrite | apply WBlind.bind | apply WBlind.opt | apply WBlind.ite
  | apply Blind.pwrite0 | apply Blind.run
  | intro)

private theorem gwriteAll_blind {α : Type} {w : α → Writer} (l : List α) (h : ∀ a, Blind (w a)) :
    WBlind (gwriteAll w l) := by
  induction l with
  | nil => exact WBlind.pure ()
  | cons a l ih => exact WBlind.seq (WBlind.gwrite (h a)) ih

private theorem rates_blind (l : List EncodedRate) : WBlind (gwriteRates l) := by
  induction l with
  | nil => exact WBlind.pure ()
  | cons a l ih => exact WBlind.seq (WBlind.gwrite (Blind.u8 _)) ih

private theorem suite_blind (c : IEEE80211CipherSuiteSelector) : Blind (writeCipherSuite c) := by
  unfold writeCipherSuite; blind

private theorem akm_blind (c : IEEE80211AkmType) : Blind (writeAkm c) := by
  unfold writeAkm; blind

private theorem pmkid_blind (c : Arr 16) : Blind (writePmkid c) := by
  unfold writePmkid; blind

private theorem iter_blind (it : ReadIterator) : Blind it.write := by
  unfold ReadIterator.write; blind

private theorem gwrite_offset {w : Writer} {buf buf' : Bytes} {off off' : Nat} {u : Unit}
    (h : Wr.gwrite w buf off = .ok (u, buf', off')) : off ≤ off' := by
  rw [Wr.gwrite] at h
  split at h
  · cases h
  · split at h <;> cases h
    omega

/-- A list of an RSN element: two bytes are left free for the count. -/
theorem writeRsnList_holed (w : Writer) : writeRsnList w = holed (Wr.gwrite w) (fun m off' =>
    .ok (toLE (BitVec.ofNat 16 (off' - (m + 2)) / 4))) := by
  funext buf off
  rw [writeRsnList, holed]
  cases hg : Wr.gwrite w buf (off + 2) with
  | err e => rfl
  | panic => rfl
  | ok x =>
    obtain ⟨u, buf', off'⟩ := x
    have hk : off + 2 ≤ off' := gwrite_offset hg
    have : off' - (off' - (off + 2)) - 2 = off := by omega
    simp only [this]
    rfl

private theorem rsnList_blind {w : Writer} (h : Blind w) : WBlind (writeRsnList w) := by
  rw [writeRsnList_holed]
  exact WBlind.holed (WBlind.gwrite h) (PastErr.gwrite w) (fun i j bs hb => by cases hb; simp)

private theorem rsn_blind {P A M : Type} {wp : P → Writer} {wa : A → Writer} {wm : M → Writer} (hp : ∀ x, Blind (wp x))
    (ha : ∀ x, Blind (wa x)) (hm : ∀ x, Blind (wm x)) (e : RsnElement P A M) : Blind (writeRsn wp wa wm e) := by
  unfold writeRsn
  refine Blind.run (WBlind.seq (WBlind.gwrite (Blind.le _)) ?_)
  split
  · exact WBlind.pure _
  refine WBlind.seq (WBlind.gwrite (suite_blind _)) ?_
  split
  · exact WBlind.pure _
  refine WBlind.seq (rsnList_blind (hp _)) ?_
  split
  · exact WBlind.pure _
  refine WBlind.seq (rsnList_blind (ha _)) ?_
  split
  · exact WBlind.pure _
  refine WBlind.seq (WBlind.gwrite (Blind.le _)) ?_
  split
  · exact WBlind.pure _
  refine WBlind.seq (rsnList_blind (hm _)) ?_
  split
  · exact WBlind.pure _
  exact WBlind.gwrite (suite_blind _)

private theorem fixed_blind {κ : Type} (f : EapolKeyFrame κ) : WBlind (writeEapolFixed f) := by
  unfold writeEapolFixed; blind

omit [ScrollRule] in
theorem eapolSize_length (m off : Nat) (bs : Bytes) (h : (do
    let n ← Res.sub off m
    let k ← Res.sub n 2
    pure (toBE (BitVec.ofNat 16 k)) : Res Bytes) = .ok bs) : bs.length = 2 := by
  cases h1 : Res.sub off m with
  | err e => rw [h1] at h; cases h
  | panic => rw [h1] at h; cases h
  | ok n =>
    rw [h1, Res.ok_bind] at h
    cases h2 : Res.sub n 2 with
    | err e => rw [h2] at h; cases h
    | panic => rw [h2] at h; cases h
    | ok k =>
      rw [h2, Res.ok_bind] at h
      cases h
      simp

/-- An EAPOL key frame: two bytes are left free for each of the two lengths. -/
theorem writeEapolKeyFrame_holed (f : EapolKeyFrame Obj) : writeEapolKeyFrame f = Wr.run (do
Wr.gwrite (writeU8 2)
Wr.gwrite (writeU8 3)
holed (do
  writeEapolFixed f
  holed (Wr.gwrite f.key_data.write) fun m off => do
    let n ← Res.sub off m
    let k ← Res.sub n 2
    pure (toBE (BitVec.ofNat 16 k))) fun m off => do
  let n ← Res.sub off m
  let k ← Res.sub n 2
  pure (toBE (BitVec.ofNat 16 k))) := by
  unfold writeEapolKeyFrame
  congr 1
  funext buf off
  simp only [bind, Wr.bind, holed, Wr.offset, Wr.skip, Wr.lift, Wr.patch]
  cases Wr.gwrite (writeU8 2) buf off with
  | err e => rfl
  | panic => rfl
  | ok x =>
  obtain ⟨u, buf, off⟩ := x
  simp only []
  cases Wr.gwrite (writeU8 3) buf off with
  | err e => rfl
  | panic => rfl
  | ok x =>
  obtain ⟨u, buf, o1⟩ := x
  simp only []
  cases writeEapolFixed f buf (o1 + 2) with
  | err e => rfl
  | panic => rfl
  | ok x =>
  obtain ⟨u, buf, o2⟩ := x
  simp only []
  cases Wr.gwrite f.key_data.write buf (o2 + 2) with
  | err e => rfl
  | panic => rfl
  | ok x =>
  obtain ⟨u, buf, o3⟩ := x
  simp only []
  cases Res.sub o3 o2 with
  | err e => rfl
  | panic => rfl
  | ok n =>
  simp only [Res.bind]
  cases Res.sub n 2 with
  | err e => rfl
  | panic => rfl
  | ok k =>
  simp only [pure, writeBE]
  cases pwrite (writeBytes (toBE (BitVec.ofNat 16 k))) o2 buf with
  | err e => rfl
  | panic => rfl
  | ok x =>
  simp only []
  cases Res.sub o3 o1 with
  | err e => rfl
  | panic => rfl
  | ok n =>
  simp only []
  cases Res.sub n 2 with
  | err e => rfl
  | panic => rfl
  | ok k =>
  simp only []
  cases pwrite (writeBytes (toBE (BitVec.ofNat 16 k))) o1 x.1 <;> rfl

private theorem eapol_blind (f : EapolKeyFrame Obj) (h : Blind f.key_data.write) : Blind (writeEapolKeyFrame f) := by
  rw [writeEapolKeyFrame_holed]
  refine Blind.run (WBlind.seq (WBlind.gwrite (Blind.u8 _)) (WBlind.seq (WBlind.gwrite (Blind.u8 _)) ?_))
  refine WBlind.holed (WBlind.seq (fixed_blind f) ?_) (PastErr.bind ?_) eapolSize_length
  · exact WBlind.holed (WBlind.gwrite h) (PastErr.gwrite _) eapolSize_length
  · unfold writeEapolFixed
    exact PastErr.bind (PastErr.gwrite _)

namespace Spec

/-- Everything the crate can write, but for A-MSDUs; where a value contains a value of the user's own type, that
must be oblivious. -/
inductive Sends [Crc32] : Writer → Prop where
  | gtk (k : GtkKde) : Sends (writeGtk k)
  | band (b : BandAndChannelInfo) : Sends (writeBandAndChannelInfo b)
  | owe (e : OWETransitionModeElement) : Sends (writeOWE e)
  | supportedRates (e : RatesElement) : Sends (writeSupportedRates e)
  | extendedRates (e : RatesElement) : Sends (writeExtendedSupportedRates e)
  | timBits (b : TIMBits) : Sends (writeTIMBits b)
  | timBitmap (b : TIMBitmap) : Sends (writeTIMBitmap b)
  | tim (e : TIMElement) : Sends (writeTIM e)
  | dsss (e : DSSSParameterSetElement) : Sends (writeDSSS e)
  | ibss (e : IBSSParameterSetElement) : Sends (writeIBSS e)
  | bssLoad (e : BSSLoadElement) : Sends (writeBSSLoad e)
  | ssid (e : SSIDLikeElement) : Sends (writeSSID e)
  | vhtCapabilities (e : VHTCapabilitiesElement) : Sends (writeVHTCapabilities e)
  | vhtOperation (e : VHTOperationElement) : Sends (writeVHTOperation e)
  | mcsSet (s : SupportedMCSSet) : Sends (writeSupportedMCSSet s)
  | htCapabilities (e : HTCapabilitiesElement) : Sends (writeHTCapabilities e)
  | htOperation (e : HTOperationElement) : Sends (writeHTOperation e)
  | meshConfiguration (e : MeshConfigurationElement) : Sends (writeMeshConfiguration e)
  | meshPeering (e : MeshPeeringManagement) : Sends (writeMeshPeering e)
  | cipherSuite (c : IEEE80211CipherSuiteSelector) : Sends (writeCipherSuite c)
  | akm (a : IEEE80211AkmType) : Sends (writeAkm a)
  | pmkid (p : Arr 16) : Sends (writePmkid p)
  | rsnLists (e : RsnElement.OfLists) : Sends (writeRsnLists e)
  | rsnParsed (e : RsnElement.Parsed) : Sends (writeRsnParsed e)
  | iterator (it : ReadIterator) : Sends (it.write)
  | rawElement (e : RawElement) : Sends (writeRawElement e)
  | rawExtElement (e : RawExtElement) : Sends (writeRawExtElement e)
  | bytes (bs : Bytes) : Sends ((bytesObj bs).write)
  | elements (bs : Bytes) : Sends ((elementsObj bs).write)
  | empty : Sends (emptyObj.write)
  | mgmtHeader (h : ManagementFrameHeader) : Sends (writeMgmtHeader h)
  | dataHeader (h : DataFrameHeader) : Sends (writeDataHeader h)
  | control (f : ControlFrame) : Sends (writeControlFrame f)
  | rawAction (b : RawActionBody) : Sends (writeRawAction b)
  | receivedPayload (p : DataFrameReadPayload) : Sends (writeDataFramePayload p)
  | cryptoHeader (h : CryptoHeader) : Sends (writeCryptoHeader h)
  | tlv (t : Byte) (p : Obj) (h : Sends p.write) : Sends (writeTLV t p)
  | extElement (t : Byte) (p : Obj) (h : Sends p.write) : Sends ((typedExtElement t p).write)
  | vendorPayload (pfx : Bytes) (p : Obj) (h : Sends p.write) : Sends ((prefixedVendorPayload pfx p).write)
  | vendorElement (p : Obj) (h : Sends p.write) : Sends ((vendorSpecificElement p).write)
  | element (e : Elem) (h : Sends e.obj.write) : Sends (e.writeWrapped)
  | lastTyped (e : Elem) (h : Sends e.obj.write) : Sends ((Chain.last (.typed e)).write)
  | lastRaw (e : RawElement) : Sends ((Chain.last (.raw e)).write)
  | linkTyped (e : Elem) (c : Chain) (h : Sends e.obj.write) (hc : Sends c.write) : Sends ((Chain.link (.typed e) c).write)
  | linkRaw (e : RawElement) (c : Chain) (hc : Sends c.write) : Sends ((Chain.link (.raw e) c).write)
  | associationRequest (b : AssociationRequestBody Obj) (h : Sends b.elements.write) : Sends (writeAssociationRequest b)
  | associationResponse (b : AssociationResponseBody Obj) (h : Sends b.elements.write) : Sends (writeAssociationResponse b)
  | authentication (b : AuthenticationBody Obj) (h : Sends b.elements.write) : Sends (writeAuthentication b)
  | beacon (b : BeaconLikeBody Obj) (h : Sends b.elements.write) : Sends (writeBeaconLike b)
  | disassociation (b : ReasonBody Obj) (h : Sends b.elements.write) : Sends (writeDisassociation b)
  | deauthentication (b : ReasonBody Obj) (h : Sends b.elements.write) : Sends (writeDeauthentication b)
  | probeRequest (b : ProbeRequestBody Obj) (h : Sends b.elements.write) : Sends (writeProbeRequest b)
  | vendorAction (b : VendorActionBody Obj) (h : Sends b.payload.write) : Sends (writeVendorAction b)
  | meshOpen (b : MeshPeeringOpenBody Obj) (h : Sends b.elements.write) : Sends (writeMeshPeeringOpen b)
  | meshConfirm (b : MeshPeeringConfirmBody Obj) (h : Sends b.elements.write) : Sends (writeMeshPeeringConfirm b)
  | meshClose (b : MeshPeeringCloseBody Obj) (h : Sends b.elements.write) : Sends (writeMeshPeeringClose b)
  | mgmtFrame (s : ManagementFrameSubtype) (hd : ManagementFrameHeader) (w : Writer) (h : Sends w) (fcs : Bool) : Sends (writeMgmtFrame s hd w fcs)
  | dataFrame (f : DataFrame Obj) (h : ∀ p, f.payload = some p → Sends p.write) (fcs : Bool) : Sends (writeDataFrame f fcs)
  | eapol (f : EapolKeyFrame Obj) (h : Sends f.key_data.write) : Sends (writeEapolKeyFrame f)
  | snap (f : SnapLlcFrame Obj) (h : Sends f.payload.write) : Sends (writeSnap f)
  | cryptoWrapper (c : CryptoWrapper Obj) (h : Sends c.payload.write) : Sends (writeCryptoWrapper c)
  | user (w : Writer) (h : Oblivious w) : Sends (w)

end Spec

private theorem bits_blind (b : TIMBits) : Blind (writeTIMBits b) := by
  have h : ∀ b : TIMBits, Blind (fun buf => do
      let bytes ← b.asBytes
      pwrite (writeBytes bytes) 0 buf) := by
    intro b
    cases hb : b.asBytes with
    | ok bs => exact Blind.pwrite0 (Blind.bytes bs)
    | err e => exact fun n => .inl ⟨e, fun t _ => rfl⟩
    | panic => exact fun n => .inr (.inl fun t _ => rfl)
  cases b with
  | slice bs => exact Blind.bytes bs
  | _ => exact h _

private theorem bitmap_blind (b : TIMBitmap) : Blind (writeTIMBitmap b) := by
  unfold writeTIMBitmap
  refine Blind.run ?_
  split
  · exact WBlind.seq (WBlind.gwrite (Blind.u8 _)) (WBlind.gwrite (bits_blind _))
  · blind

private theorem tim_blind (e : TIMElement) : Blind (writeTIM e) := by
  unfold writeTIM
  refine Blind.run (WBlind.bind (WBlind.lift _) fun _ => WBlind.seq (WBlind.gwrite (Blind.u8 _))
    (WBlind.seq (WBlind.gwrite (Blind.u8 _)) ?_))
  split
  · exact WBlind.ite (WBlind.pure _) (WBlind.gwrite (bitmap_blind _))
  · exact WBlind.pure _

private theorem tlv_blind (t : Byte) (p : Obj) (h : Blind p.write) : Blind (writeTLV t p) := by
  unfold writeTLV; blind

private theorem ext_blind (t : Byte) (p : Obj) (h : Blind p.write) : Blind (typedExtElement t p).write := by
  unfold typedExtElement; blind

private theorem prefixed_blind (t : Bytes) (p : Obj) (h : Blind p.write) :
    Blind (prefixedVendorPayload t p).write := by
  unfold prefixedVendorPayload; blind

private theorem vendor_blind (p : Obj) (h : Blind p.write) : Blind (vendorSpecificElement p).write := by
  unfold vendorSpecificElement; blind

private theorem wrapped_blind (e : Elem) (h : Blind e.obj.write) : Blind e.writeWrapped := by
  unfold Elem.writeWrapped
  split
  · exact Blind.pwrite0 (tlv_blind _ _ h)
  · exact Blind.pwrite0 (tlv_blind _ _ (ext_blind _ _ h))
  · exact Blind.pwrite0 (tlv_blind _ _ (vendor_blind _ (prefixed_blind _ _ h)))

private theorem raw_blind (e : RawElement) : Blind (writeRawElement e) := tlv_blind _ _ (Blind.bytes _)

private theorem mcs_blind (s : SupportedMCSSet) : Blind (writeSupportedMCSSet s) := by
  unfold writeSupportedMCSSet; blind

private theorem mgmtHeader_blind (h : ManagementFrameHeader) : Blind (writeMgmtHeader h) := by
  unfold writeMgmtHeader; blind

private theorem dataHeader_blind (h : DataFrameHeader) : Blind (writeDataHeader h) := by
  unfold writeDataHeader; blind

private theorem cryptoHeader_blind (h : CryptoHeader) : Blind (writeCryptoHeader h) := by
  unfold writeCryptoHeader; blind

omit [ScrollRule] in
private theorem wbs {p : Wr Unit} (h : WBlind p) {q : Wr Unit} (hq : WKnown q) : WKnown (p >>= fun _ => q) :=
  h.known.bind fun _ => hq

private theorem sends_blind [Crc32] {w : Writer} (h : Sends w) : Blind w := by
  induction h with
  | gtk k => unfold writeGtk; blind
  | band b => unfold writeBandAndChannelInfo; blind
  | owe e =>
    unfold writeOWE writeBandAndChannelInfo
    refine Blind.run (WBlind.seq (WBlind.gwrite (Blind.bytes _)) (WBlind.seq (WBlind.gwrite (Blind.u8 _))
      (WBlind.seq (WBlind.gwrite (Blind.bytes _)) ?_)))
    split <;> blind
  | supportedRates e => exact Blind.run (rates_blind _)
  | extendedRates e => exact Blind.run (rates_blind _)
  | timBits b => exact bits_blind b
  | timBitmap b => exact bitmap_blind b
  | tim e => exact tim_blind e
  | dsss e => unfold writeDSSS; blind
  | ibss e => unfold writeIBSS; blind
  | bssLoad e => unfold writeBSSLoad; blind
  | ssid e => unfold writeSSID; blind
  | vhtCapabilities e => unfold writeVHTCapabilities; blind
  | vhtOperation e => unfold writeVHTOperation; blind
  | mcsSet s => exact mcs_blind s
  | htCapabilities e =>
    have := mcs_blind e.supported_mcs_set
    unfold writeHTCapabilities; blind
  | htOperation e =>
    have := mcs_blind e.basic_ht_mcs_set
    unfold writeHTOperation; blind
  | meshConfiguration e => unfold writeMeshConfiguration; blind
  | meshPeering e => unfold writeMeshPeering; blind
  | cipherSuite c => exact suite_blind c
  | akm a => exact akm_blind a
  | pmkid p => exact pmkid_blind p
  | rsnLists e =>
    exact rsn_blind (fun l => Blind.run (gwriteAll_blind l suite_blind)) (fun l => Blind.run (gwriteAll_blind l akm_blind))
      (fun l => Blind.run (gwriteAll_blind l pmkid_blind)) e
  | rsnParsed e => exact rsn_blind iter_blind iter_blind iter_blind e
  | iterator it => exact iter_blind it
  | rawElement e => exact raw_blind e
  | rawExtElement e => unfold writeRawExtElement; blind
  | bytes bs => exact Blind.bytes bs
  | elements bs => exact Blind.pwrite0 (Blind.bytes bs)
  | empty => exact Blind.empty
  | mgmtHeader h => exact mgmtHeader_blind h
  | dataHeader h => exact dataHeader_blind h
  | control f => cases f <;> unfold writeControlFrame <;> blind
  | rawAction b => unfold writeRawAction; blind
  | receivedPayload p => cases p <;> unfold writeDataFramePayload <;> blind
  | cryptoHeader h => exact cryptoHeader_blind h
  | tlv t p _ h => exact tlv_blind t p h
  | extElement t p _ h => exact ext_blind t p h
  | vendorPayload pfx p _ h => exact prefixed_blind pfx p h
  | vendorElement p _ h => exact vendor_blind p h
  | element e _ h => exact wrapped_blind e h
  | lastTyped e _ h => exact Blind.pwrite0 (wrapped_blind e h)
  | lastRaw e => exact Blind.pwrite0 (raw_blind e)
  | linkTyped e c _ _ h hc => exact Blind.run (WBlind.seq (WBlind.gwrite (wrapped_blind e h)) (WBlind.gwrite hc))
  | linkRaw e c _ hc => exact Blind.run (WBlind.seq (WBlind.gwrite (raw_blind e)) (WBlind.gwrite hc))
  | associationRequest b _ h => unfold writeAssociationRequest; blind
  | associationResponse b _ h => unfold writeAssociationResponse; blind
  | authentication b _ h => unfold writeAuthentication; blind
  | beacon b _ h => unfold writeBeaconLike; blind
  | disassociation b _ h => unfold writeDisassociation; blind
  | deauthentication b _ h => unfold writeDeauthentication; blind
  | probeRequest b _ h => exact h
  | vendorAction b _ h => unfold writeVendorAction appendVendorActionHeader; blind
  | meshOpen b _ h => unfold writeMeshPeeringOpen; blind
  | meshConfirm b _ h => unfold writeMeshPeeringConfirm; blind
  | meshClose b _ h => unfold writeMeshPeeringClose; blind
  | mgmtFrame s hd w _ fcs h =>
    unfold writeMgmtFrame
    exact Blind.runKnown ((WBlind.lift _).known.bind fun _ => wbs (WBlind.gwrite (Blind.le _))
      (wbs (WBlind.gwrite (mgmtHeader_blind _)) (wbs (WBlind.gwrite h) (WKnown.fcsIf fcs))))
  | dataFrame f _ fcs h =>
    unfold writeDataFrame
    exact Blind.runKnown ((WBlind.lift _).known.bind fun _ => wbs (WBlind.gwrite (Blind.le _))
      (wbs (WBlind.gwrite (dataHeader_blind _)) (wbs (WBlind.opt h) (WKnown.fcsIf fcs))))
  | eapol f _ h => exact eapol_blind f h
  | snap f _ h => unfold writeSnap; blind
  | cryptoWrapper c _ h =>
    have := cryptoHeader_blind c.crypto_header
    unfold writeCryptoWrapper; blind
  | user w h => exact (oblivious_iff_blind w).mp h

/-- Whatever is written with any of the writers listed, nothing depends on the old contents of the buffer.  (The full
statement includes A-MSDUs: see `c73_amsdu_iff`.) -/
theorem c73_oblivious_partial [Crc32] {w : Writer} (h : Sends w) : Oblivious w :=
  (oblivious_iff_blind w).mpr (sends_blind h)

/-! ## Frames built piece by piece -/

namespace Spec

/-- A management frame written into a buffer, elements added one by one, and the frame finished. -/
def dynamicRun [Crc32] (s : ManagementFrameSubtype) (h : ManagementFrameHeader) (w : Writer) (es : List Elem)
    (fcs : Bool) : Writer := fun buf => do
  let d ← intoDynamic s h w buf
  let d ← es.foldlM (fun d e => d.addElement e) d
  d.finish fcs

end Spec

private theorem dynamic_loop [Crc32] (es : List Elem) (fcs : Bool) : ∀ (buf : Bytes) (off : Nat),
    (do
      let d ← es.foldlM (fun d e => d.addElement e) (⟨buf, off⟩ : DynamicManagementFrame)
      d.finish fcs) =
    (((es.forM fun e => Wr.gwrite e.writeWrapped) >>= fun _ => if fcs = true then attachFcs else pure ()) buf off).map
      fun r => r.2 := by
  induction es with
  | nil =>
    intro buf off
    show DynamicManagementFrame.finish ⟨buf, off⟩ fcs = ((if fcs = true then attachFcs else pure ()) buf off).map _
    cases fcs with
    | false => rfl
    | true =>
      simp only [if_true, attachFcs, DynamicManagementFrame.finish]
      split <;> rfl
  | cons e es ih =>
    intro buf off
    simp only [List.foldlM_cons, DynamicManagementFrame.addElement]
    show _ = ((Wr.bind (Wr.bind (Wr.gwrite e.writeWrapped) _) _) buf off).map _
    simp only [Wr.bind]
    cases Wr.gwrite e.writeWrapped buf off with
    | err e => rfl
    | panic => rfl
    | ok x =>
      obtain ⟨u, buf', off'⟩ := x
      exact ih buf' off'

private theorem forM_blind {α : Type} {f : α → Writer} (l : List α) (h : ∀ a ∈ l, Blind (f a)) :
    WBlind (l.forM fun a => Wr.gwrite (f a)) := by
  induction l with
  | nil => exact WBlind.pure ()
  | cons a l ih =>
    exact WBlind.seq (WBlind.gwrite (h a List.mem_cons_self)) (ih fun b hb => h b (List.mem_cons_of_mem _ hb))

/-- The three steps as one program. -/
theorem dynamicRun_eq [Crc32] (s : ManagementFrameSubtype) (h : ManagementFrameHeader) (w : Writer) (es : List Elem)
    (fcs : Bool) : dynamicRun s h w es fcs = Wr.run (Wr.gwrite (writeMgmtFrame s h w false) >>= fun _ =>
      (es.forM fun e => Wr.gwrite e.writeWrapped) >>= fun _ => if fcs = true then attachFcs else pure ()) := by
  funext buf
  have hl := dynamic_loop es fcs
  generalize ((es.forM fun e => Wr.gwrite e.writeWrapped) >>= fun _ => if fcs = true then attachFcs else pure ()) = q
    at hl
  unfold dynamicRun intoDynamic DynamicManagementFrame.new pwrite
  simp only [Wr.run, bind, Wr.bind]
  cases hg : Wr.gwrite (writeMgmtFrame s h w false) buf 0 with
  | err e => rfl
  | panic => rfl
  | ok x =>
    obtain ⟨u, buf', off'⟩ := x
    refine (hl buf' off').trans ?_
    simp only []
    cases q buf' off' <;> rfl

/-- The same for a management frame to which elements are added later. -/
theorem c73_dynamic [Crc32] (s : ManagementFrameSubtype) (h : ManagementFrameHeader) (w : Writer) (es : List Elem)
    (fcs : Bool) (hw : Sends w) (he : ∀ e ∈ es, Sends e.obj.write) : Oblivious (dynamicRun s h w es fcs) := by
  rw [dynamicRun_eq, oblivious_iff_blind]
  exact Blind.runKnown (wbs (WBlind.gwrite (sends_blind (.mgmtFrame s h w hw false)))
    (wbs (forM_blind es fun e hm => wrapped_blind e (sends_blind (he e hm))) (WKnown.fcsIf fcs)))

/-! ## A-MSDUs -/

namespace Spec

/-- What is sent for subframes written into a buffer: each is followed by as many old bytes as there should be
padding. -/
def sentAmsdu : List (AMSDUSubframe Bytes) → Bytes → Bytes
  | [], _ => []
  | s :: ss, buf =>
    let n := 14 + s.payload.length
    subframeBody s ++ ((buf.drop n).take (padding n) ++ sentAmsdu ss (buf.drop (n + padding n)))

end Spec

omit [ScrollRule] in
private theorem sent_length (ss : List (AMSDUSubframe Bytes)) : ∀ buf : Bytes, paddedSize ss ≤ buf.length →
    (sentAmsdu ss buf).length = paddedSize ss := by
  induction ss with
  | nil => intro _ _; rfl
  | cons s ss ih =>
    intro buf hb
    rw [paddedSize_cons] at hb ⊢
    have := ih (buf.drop (14 + s.payload.length + padding (14 + s.payload.length))) (by
      rw [List.length_drop]; omega)
    simp only [sentAmsdu, List.length_append, List.length_take, List.length_drop, subframeBody_length, this]
    omega

private theorem amsdu_loop (ss : List (AMSDUSubframe Bytes)) : ∀ (pre buf : Bytes), paddedSize ss ≤ buf.length →
    ((ss.map toWrite).forM fun s => Wr.gwrite (writeSubframe s)) (pre ++ buf) pre.length =
      .ok ((), pre ++ (sentAmsdu ss buf ++ buf.drop (paddedSize ss)), pre.length + paddedSize ss) := by
  induction ss with
  | nil =>
    intro pre buf _
    show Wr.pure () _ _ = _
    simp [Wr.pure, sentAmsdu, paddedSize]
  | cons s ss ih =>
    intro pre buf hb
    have hs := slack_le
    rw [paddedSize_cons] at hb ⊢
    have hpad : 14 + max s.payload.length slack ≤ 14 + s.payload.length + padding (14 + s.payload.length) := by
      simp only [padding]; omega
    have hbl := subframeBody_length s
    have hw := writeSubframe_ok s buf (by omega)
    simp only [sentAmsdu]
    generalize padding (14 + s.payload.length) = p at *
    have hpadl : ((buf.drop (14 + s.payload.length)).take p).length = p := by
      rw [List.length_take, List.length_drop]; omega
    generalize hpd : (buf.drop (14 + s.payload.length)).take p = pad at *
    have h3 := ih (pre ++ (subframeBody s ++ pad)) (buf.drop (14 + s.payload.length + p))
      (by simp only [List.length_drop]; omega)
    show Wr.bind (Wr.gwrite (writeSubframe (toWrite s))) (fun _ => (ss.map toWrite).forM _) _ _ = _
    have hsplit : subframeBody s ++ buf.drop (subframeBody s).length =
        (subframeBody s ++ pad) ++ buf.drop (14 + s.payload.length + p) := by
      rw [List.append_assoc]
      congr 1
      conv => lhs; rw [← List.take_append_drop p (buf.drop (subframeBody s).length)]
      rw [List.drop_drop, hbl, hpd]
    have hg : Wr.gwrite (writeSubframe (toWrite s)) (pre ++ buf) pre.length =
        .ok ((), (pre ++ (subframeBody s ++ pad)) ++ buf.drop (14 + s.payload.length + p),
          (pre ++ (subframeBody s ++ pad)).length) := by
      simp only [Wr.gwrite, badOff_eq, List.length_append, List.drop_left, List.take_left]
      rw [if_neg (by simp; omega), hw, hsplit]
      simp only [List.append_assoc, hbl, hpadl]
    simp only [Wr.bind, hg]
    rw [h3]
    simp only [List.append_assoc, List.length_append, hbl, hpadl, List.drop_drop]
    rw [show pre.length + (14 + s.payload.length + p) + paddedSize ss =
      pre.length + (14 + s.payload.length + p + paddedSize ss) by omega]

/-- Violation: an A-MSDU sends old bytes of the buffer as padding; everything written is given here. -/
theorem c73_amsdu_leaks (ss : List (AMSDUSubframe Bytes)) (buf : Bytes) (hb : paddedSize ss ≤ buf.length) :
    writeAmsdu (ss.map toWrite) buf =
      .ok (sentAmsdu ss buf ++ buf.drop (sentAmsdu ss buf).length, (sentAmsdu ss buf).length) := by
  have := amsdu_loop ss [] buf hb
  simp only [List.nil_append, List.length_nil, Nat.zero_add] at this
  rw [sent_length ss buf hb, writeAmsdu, Wr.run, this]

private theorem subframe_blind (s : AMSDUSubframe Bytes) (h : padding (14 + s.payload.length) = 0) :
    Blind (writeSubframe (toWrite s)) := by
  have hw : writeSubframe (toWrite s) = Wr.run (do
      Wr.gwrite (writeBytes s.destination_address.val)
      Wr.gwrite (writeBytes s.source_address.val)
      Wr.gwrite (writeLE (BitVec.ofNat 16 s.payload.length))
      Wr.gwrite (writeBytes s.payload)) := by
    funext buf
    have he := (subframe_inner_emits s).run
    by_cases hb : 14 + max s.payload.length slack ≤ buf.length
    · rw [writeSubframe_ok s buf hb, he.ok buf hb, h, subframeBody_length]
      rfl
    · obtain ⟨e, he⟩ := he.err buf (by omega)
      rw [he]
      simp only [writeSubframe, toWrite, bytesObj, he, Res.map]
  rw [hw]
  blind

omit [ScrollRule] in
private theorem sent_differs (ss : List (AMSDUSubframe Bytes)) : ∀ n : Nat, paddedSize ss ≤ n →
    sentAmsdu ss (List.replicate n 0) = sentAmsdu ss (List.replicate n 1) →
    ∀ s ∈ ss, padding (14 + s.payload.length) = 0 := by
  induction ss with
  | nil => intro _ _ _ s hs; cases hs
  | cons s ss ih =>
    intro n hn h
    rw [paddedSize_cons] at hn
    simp only [sentAmsdu, List.drop_replicate, List.take_replicate] at h
    have h1 := List.append_cancel_left h
    obtain ⟨h2, h3⟩ := List.append_inj h1 (by simp)
    have hp : padding (14 + s.payload.length) = 0 := by
      apply Classical.byContradiction
      intro hne
      have := congrArg List.head? h2
      simp only [List.head?_replicate] at this
      rw [if_neg (by omega), if_neg (by omega)] at this
      cases this
    intro x hx
    rcases List.mem_cons.mp hx with rfl | hx
    · exact hp
    · exact ih _ (by omega) h3 x hx

/-- An A-MSDU of byte strings is oblivious exactly when none of its subframes needs padding. -/
theorem c73_amsdu_iff (ss : List (AMSDUSubframe Bytes)) :
    Oblivious (writeAmsdu (ss.map toWrite)) ↔ ∀ s ∈ ss, padding (14 + s.payload.length) = 0 := by
  constructor
  · intro h
    have h0 := h (List.replicate (paddedSize ss) 0) (List.replicate (paddedSize ss) 1) (by simp)
    rw [c73_amsdu_leaks ss _ (by simp), c73_amsdu_leaks ss _ (by simp), sent_length ss _ (by simp),
      sent_length ss _ (by simp)] at h0
    refine sent_differs ss (paddedSize ss) (Nat.le_refl _) ?_
    simp only [List.drop_replicate, Nat.sub_self, List.replicate_zero, List.append_nil] at h0
    generalize hx : (Res.ok (sentAmsdu ss (List.replicate (paddedSize ss) 0), paddedSize ss) : Res (Bytes × Nat)) = x at h0
    generalize hy : (Res.ok (sentAmsdu ss (List.replicate (paddedSize ss) 1), paddedSize ss) : Res (Bytes × Nat)) = y at h0
    cases h0 with
    | err e => cases hx
    | panic => cases hx
    | ok bs h₁ h₂ =>
      simp only [Res.ok.injEq, Prod.mk.injEq] at hx hy
      rw [hx.1, hy.1, ← hx.2]
      simp
  · intro h
    rw [oblivious_iff_blind]
    refine Blind.run (forM_blind _ fun o ho => ?_)
    obtain ⟨s, hs, rfl⟩ := List.mem_map.mp ho
    exact subframe_blind s (h s hs)

/-! ## Protected EAPOL frames -/

omit [ScrollRule] in
private theorem copyInto_left (P t bs : Bytes) (pos : Nat) (h : pos + bs.length ≤ P.length) :
    copyInto (P ++ t) pos bs = .ok ((P.take pos ++ bs ++ P.drop (pos + bs.length)) ++ t) := by
  rw [copyInto, if_pos (by rw [List.length_append]; omega), List.take_append_of_le_length (by omega),
    List.drop_append_of_le_length h]
  simp only [List.append_assoc]

omit [ScrollRule] in
private theorem slice_left (P t : Bytes) (pos n : Nat) (h : pos + n ≤ P.length) :
    slice (P ++ t) pos n = .ok ((P.drop pos).take n) := by
  rw [slice, if_pos (by rw [List.length_append]; omega), List.drop_append_of_le_length (by omega),
    List.take_append_of_le_length (by rw [List.length_drop]; omega)]

private theorem pwriteIgnore_left (P t : Bytes) (x : BitVec 16) (pos : Nat) (h : pos + 2 ≤ P.length) :
    pwriteIgnore x pos (P ++ t) = (P.take pos ++ toBE x ++ P.drop (pos + 2)) ++ t := by
  have hs := slack_le
  have hl : (toBE x).length = 2 := by simp
  have : pwrite (writeBE x) pos (P ++ t) = .ok ((P.take pos ++ toBE x ++ P.drop (pos + 2)) ++ t, 2) := by
    rw [pwrite, Wr.gwrite, badOff_eq, if_neg (by simp; omega), writeBE, writeBytes,
      if_pos (by rw [hl, List.length_drop, List.length_append]; omega)]
    simp only [hl, List.drop_drop, Nat.add_sub_cancel_left]
    rw [List.take_append_of_le_length (by omega), List.drop_append_of_le_length h]
    simp only [List.append_assoc]
  rw [pwriteIgnore, this]

/-- One outcome for each length of what follows `P`. -/
private def Tail (P : Bytes) (f : Bytes → Res (Bytes × Nat)) : Prop := ∀ n : Nat,
  (∃ e, ∀ t : Bytes, t.length = n → f (P ++ t) = .err e) ∨
  (∀ t : Bytes, t.length = n → f (P ++ t) = .panic) ∨
  (∃ Q : Bytes, P.length ≤ Q.length ∧ Q.length ≤ P.length + n ∧
    ∀ t : Bytes, t.length = n → f (P ++ t) = .ok (Q ++ t.drop (Q.length - P.length), Q.length))

variable [HmacSha1] [AesKw]

omit [HmacSha1] in
private theorem wrap_tail (kek : Option (Arr 16)) (P : Bytes) (temp kdl ls ks m es : Nat) (hP : ks + kdl = P.length)
    (hls : ls + 2 ≤ ks) (hes : es + 4 ≤ ks) :
    Tail P (fun b => wrapKeyData kek b temp P.length kdl ls ks m es) := by
  intro n
  have hpad : kdl ≤ paddedKeyDataLength kdl ∧ paddedKeyDataLength kdl % 8 = 0 := by
    unfold paddedKeyDataLength
    split
    · omega
    · split <;> omega
  generalize hpd : paddedKeyDataLength kdl = pd at *
  have hlen : ∀ t : Bytes, t.length = n → (P ++ t).length = P.length + n := fun t h => by simp [h]
  by_cases hb : P.length + n < ks + pd
  · refine .inl ⟨EapolSerdeError.BufferTooShort.code, fun t ht => ?_⟩
    simp only [wrapKeyData, hpd, hlen t ht]
    rw [if_neg (by omega), if_pos hb]
  · -- the padded key data
    obtain ⟨X, hX, hpi⟩ : ∃ X : Bytes, X.length = pd - kdl ∧ ∀ t : Bytes, t.length = n →
        padInBuffer (P ++ t) ks kdl pd = .ok ((P ++ X) ++ t.drop X.length) := by
      by_cases hne : pd = kdl
      · exact ⟨[], by simp [hne], fun t _ => by simp [padInBuffer, hne]⟩
      · refine ⟨0xdd :: List.replicate (pd - (kdl + 1)) 0, by simp; omega, fun t ht => ?_⟩
        have hl : (0xdd :: List.replicate (pd - (kdl + 1)) 0 : Bytes).length = pd - kdl := by simp; omega
        rw [padInBuffer, if_pos hne, copyInto, hP, if_pos (by rw [hl, hlen t ht]; omega), List.take_left, hl,
          ← List.drop_drop, List.drop_left]
    have hPX : (P ++ X).length = ks + pd := by rw [List.length_append, hX]; omega
    have run : ∀ t : Bytes, t.length = n → wrapKeyData kek (P ++ t) temp P.length kdl ls ks m es =
        (match kek with
        | none => .err EapolSerdeError.MissingKey.code
        | some k =>
          if temp < pd + 8 then .panic
          else if P.length + n < ks + (pd + 8) then .err EapolSerdeError.BufferTooShort.code
          else do
            let buffer ← copyInto ((P ++ X) ++ t.drop X.length) ks (AesKw.wrap k (((P ++ X).drop ks).take pd))
            let more ← Res.sub (pd + 8) kdl
            let buffer := pwriteIgnore (BitVec.ofNat 16 (pd + 8)) ls buffer
            let buffer := pwriteIgnore (BitVec.ofNat 16 (77 + m + 2 + (pd + 8))) (es + 2) buffer
            pure (buffer, P.length + more)) := by
      intro t ht
      simp only [wrapKeyData, hpd, hlen t ht]
      rw [if_neg (by omega), if_neg hb, hpi t ht, Res.ok_bind, slice_left _ _ _ _ (by omega), Res.ok_bind]
      cases kek with
      | none => rfl
      | some k =>
        rw [Res.ofOption_some, Res.ok_bind]
        simp only []
        by_cases h1 : temp < pd + 8
        · rw [if_pos h1, if_pos h1]
        · rw [if_neg h1, if_neg h1, if_neg (by omega)]
          have : ((P ++ X) ++ t.drop X.length).length = P.length + n := by
            simp only [List.length_append, List.length_drop]; omega
          rw [this]
    cases kek with
    | none => exact .inl ⟨_, fun t ht => run t ht⟩
    | some k =>
      simp only [] at run
      by_cases h1 : temp < pd + 8
      · exact .inr (.inl fun t ht => (run t ht).trans (by rw [if_pos h1]))
      by_cases h2 : P.length + n < ks + (pd + 8)
      · exact .inl ⟨_, fun t ht => (run t ht).trans (by rw [if_neg h1, if_pos h2])⟩
      have hkl : (((P ++ X).drop ks).take pd).length = pd := by rw [List.length_take, List.length_drop]; omega
      have hwl : (AesKw.wrap k (((P ++ X).drop ks).take pd)).length = pd + 8 := by
        rw [AesKw.wrap_length _ _ (by rw [hkl]; exact hpad.2), hkl]
      generalize AesKw.wrap k (((P ++ X).drop ks).take pd) = W at *
      let Q1 := (P ++ X).take ks ++ W
      have hQ1 : Q1.length = ks + (pd + 8) := by
        simp only [Q1, List.length_append, List.length_take, hwl]; rw [← List.length_append, hPX]; omega
      let Q2 := Q1.take ls ++ toBE (BitVec.ofNat 16 (pd + 8)) ++ Q1.drop (ls + 2)
      have hQ2 : Q2.length = Q1.length := by
        simp only [Q2, List.length_append, List.length_take, List.length_drop, toBE_length]; omega
      let Q3 := Q2.take (es + 2) ++ toBE (BitVec.ofNat 16 (77 + m + 2 + (pd + 8))) ++ Q2.drop (es + 2 + 2)
      have hQ3 : Q3.length = Q2.length := by
        simp only [Q3, List.length_append, List.length_take, List.length_drop, toBE_length]; omega
      refine .inr (.inr ⟨Q3, by omega, by omega, fun t ht => ?_⟩)
      refine (run t ht).trans ?_
      rw [if_neg h1, if_neg h2]
      have hc : copyInto ((P ++ X) ++ t.drop X.length) ks W = .ok (Q1 ++ t.drop (Q1.length - P.length)) := by
        rw [copyInto, if_pos (by simp only [List.length_append, List.length_drop, hwl]; omega),
          List.take_append_of_le_length (by omega), hwl,
          show ks + (pd + 8) = (P ++ X).length + 8 by omega, ← List.drop_drop, List.drop_left, List.drop_drop]
        congr 3
        omega
      rw [hc, Res.ok_bind, Res.sub, if_pos (by omega), Res.ok_bind, pwriteIgnore_left _ _ _ _ (by omega),
        pwriteIgnore_left _ _ _ _ (by show es + 2 + 2 ≤ Q2.length; omega)]
      show Res.ok (Q3 ++ t.drop (Q1.length - P.length), P.length + (pd + 8 - kdl)) = _
      rw [hQ3, hQ2]
      congr 2
      omega

omit [ScrollRule] [AesKw] in
private theorem mic_left (kck : Option (Arr 16)) (Q : Bytes) (es ms me : Nat) (hes : es ≤ Q.length)
    (hm : me - ms = 16 → ms + 16 ≤ Q.length) :
    (∃ e, ∀ t, insertMic kck (Q ++ t) Q.length es ms me = .err e) ∨
    (∀ t, insertMic kck (Q ++ t) Q.length es ms me = .panic) ∨
    (∃ R : Bytes, R.length = Q.length ∧ ∀ t, insertMic kck (Q ++ t) Q.length es ms me = .ok (R ++ t)) := by
  cases kck with
  | none => exact .inl ⟨_, fun t => rfl⟩
  | some k =>
    have run : ∀ t, insertMic (some k) (Q ++ t) Q.length es ms me =
        if me - ms ≠ 16 then .panic
        else copyInto (Q ++ t) ms ((HmacSha1.hmac k.val ((Q.drop es).take (Q.length - es))).val.take 16) := by
      intro t
      rw [insertMic, Res.ofOption_some, Res.ok_bind, Res.sub, if_pos hes, Res.ok_bind,
        slice_left _ _ _ _ (by omega), Res.ok_bind]
    by_cases h : me - ms ≠ 16
    · exact .inr (.inl fun t => by rw [run t, if_pos h])
    · have hm := hm (Classical.byContradiction h)
      have hl : ((HmacSha1.hmac k.val ((Q.drop es).take (Q.length - es))).val.take 16).length = 16 := by
        rw [List.length_take, (HmacSha1.hmac k.val ((Q.drop es).take (Q.length - es))).property]; rfl
      generalize (HmacSha1.hmac k.val ((Q.drop es).take (Q.length - es))).val.take 16 = mic at *
      refine .inr (.inr ⟨Q.take ms ++ mic ++ Q.drop (ms + mic.length), ?_, fun t => ?_⟩)
      · simp only [List.length_append, List.length_take, List.length_drop, hl]; omega
      · rw [run t, if_neg h, copyInto_left _ _ _ _ (by omega)]

/-- The same for EAPOL frames that are protected while they are written: the key data is padded, wrapped and the MIC
is computed in the buffer itself.  (Key data of 65536 bytes or more does not fit into its length field.) -/
theorem c73_eapol [Crc32] (kck kek : Option (Arr 16)) (h : DataFrameHeader) (s : SnapLlcFrame (EapolKeyFrame Obj))
    (hv : ValidData h) (data : Bytes) (need : Nat) (hd : Emits s.payload.key_data.write data need)
    (hl : data.length < 65536) (temp : Nat) :
    Oblivious fun buf => serializeEapolDataFrame kck kek ⟨h, some s⟩ buf temp := by
  have hsl := slack_le
  rw [oblivious_iff_blind]
  intro n
  by_cases ht : temp < 24
  · exact .inl ⟨_, fun t _ => by simp only [serializeEapolDataFrame]; rw [if_pos ht]⟩
  by_cases hb : h.lengthInBytes + 91 + s.payload.key_mic.length + max need slack ≤ n
  · have hst := fun (buf : Bytes) (hn : buf.length = n) =>
      serialise_steps kck kek h s hv data need hd buf temp (by omega) hl (by omega)
    have hAl := eapolPrefix_length h s.oui s.ether_type
    have hFl : (eapolFields s.payload (Arr.zero 8).val).length = 77 := by simp [eapolFields]
    dsimp only at hst
    generalize eapolPrefix h s.oui s.ether_type = A at *
    generalize eapolFields s.payload (Arr.zero 8).val = F at *
    generalize s.payload.key_mic = M at *
    generalize hP : A ++ [2, 3] ++ (toBE (BitVec.ofNat 16 (79 + M.length + data.length)) ++ ((F ++ M) ++
      (toBE (BitVec.ofNat 16 data.length) ++ data))) = P
    have hPl : P.length = A.length + 83 + M.length + data.length := by
      rw [← hP]; simp [hFl]; omega
    have hPt : ∀ t : Bytes, (A ++ [2, 3]) ++ (toBE (BitVec.ofNat 16 (79 + M.length + data.length)) ++ ((F ++ M) ++
        (toBE (BitVec.ofNat 16 data.length) ++ (data ++ t)))) = P ++ t := by
      intro t; rw [← hP]; simp only [List.append_assoc]
    simp only [hPt, ← hPl] at hst
    have hw : Tail P fun b => wrapStep s.payload.key_information kek b temp P.length data.length
        (h.lengthInBytes + 8 + 1 + 1 + 2 + 1 + 2 + 2 + 8 + 32 + 16 + 8 + 8 + M.length)
        (h.lengthInBytes + 8 + 1 + 1 + 2 + 1 + 2 + 2 + 8 + 32 + 16 + 8 + 8 + M.length + 2) M.length
        (h.lengthInBytes + 8) := by
      unfold wrapStep
      split
      · exact wrap_tail kek P temp _ _ _ _ _ (by omega) (by omega) (by omega)
      · exact fun k => .inr (.inr ⟨P, Nat.le_refl _, by omega, fun t _ => by simp⟩)
    have hdl : ∀ t : Bytes, t.length = n → (t.drop P.length).length = n - P.length := fun t ht => by simp [ht]
    have hPn : P.length ≤ n := by have := hd.le; omega
    generalize h.lengthInBytes + 8 + 1 + 1 + 2 + 1 + 2 + 2 + 8 + 32 + 16 + 8 + 8 + M.length + 2 = ks at hst hw
    generalize hme : h.lengthInBytes + 8 + 1 + 1 + 2 + 1 + 2 + 2 + 8 + 32 + 16 + 8 + 8 + M.length = me at hst hw
    generalize hms : h.lengthInBytes + 8 + 1 + 1 + 2 + 1 + 2 + 2 + 8 + 32 + 16 + 8 + 8 = ms at hst
    rcases hw (n - P.length) with ⟨e, g⟩ | g | ⟨Q, hQ1, hQ2, g⟩
    · exact .inl ⟨e, fun t hn => (hst t hn).trans (by dsimp only at g; rw [g _ (hdl t hn)]; rfl)⟩
    · exact .inr (.inl fun t hn => (hst t hn).trans (by dsimp only at g; rw [g _ (hdl t hn)]; rfl))
    · have run : ∀ t : Bytes, t.length = n → serializeEapolDataFrame kck kek ⟨h, some s⟩ t temp =
          (micStep s.payload.key_information kck (Q ++ t.drop Q.length) Q.length (h.lengthInBytes + 8) ms me >>= fun b =>
            pure (b, Q.length)) := by
        intro t hn
        rw [hst t hn]
        dsimp only at g
        rw [g _ (hdl t hn), Res.ok_bind, List.drop_drop, show P.length + (Q.length - P.length) = Q.length by omega]
      have hm : (∃ e, ∀ t, micStep s.payload.key_information kck (Q ++ t) Q.length (h.lengthInBytes + 8) ms me =
            .err e) ∨
          (∀ t, micStep s.payload.key_information kck (Q ++ t) Q.length (h.lengthInBytes + 8) ms me = .panic) ∨
          (∃ R : Bytes, R.length = Q.length ∧
            ∀ t, micStep s.payload.key_information kck (Q ++ t) Q.length (h.lengthInBytes + 8) ms me =
              .ok (R ++ t)) := by
        unfold micStep
        split
        · exact mic_left kck Q _ _ _ (by omega) (by omega)
        · exact .inr (.inr ⟨Q, rfl, fun t => rfl⟩)
      rcases hm with ⟨e, k⟩ | k | ⟨R, hR, k⟩
      · exact .inl ⟨e, fun t hn => (run t hn).trans (by rw [k]; rfl)⟩
      · exact .inr (.inl fun t hn => (run t hn).trans (by rw [k]; rfl))
      · exact .inr (.inr ⟨R, by omega, fun t hn => (run t hn).trans (by rw [k, Res.ok_bind, hR]; rfl)⟩)
  · refine .inl ⟨EapolSerdeError.BufferTooShort.code, fun t hn => ?_⟩
    have hle := hd.le
    obtain ⟨e, he⟩ := (c38_write h s hv data need hd false).pwrite0.err t (by
      have h27 := c27_length h
      omega)
    simp only [serializeEapolDataFrame]
    rw [if_neg ht]
    simp only [EapolDataFrame.eapolMicRange, EapolDataFrame.eapolKeyDataLengthRange,
      EapolDataFrame.eapolKeyDataRange, Res.ofOption_some, Res.ok_bind, he, Res.mapErr]
    rfl

/-! ## Concrete cases -/

omit [ScrollRule] [HmacSha1] [AesKw] in
/-- Violation: one byte of payload, and the sixteenth byte sent is the old one. -/
theorem c73_amsdu_witness (s : Bool) :
    letI : ScrollRule := ⟨s⟩
    let a : Mac := ⟨[1, 2, 3, 4, 5, 6], rfl⟩
    writeAmsdu [toWrite ⟨a, a, [7]⟩] (List.replicate 20 0xee) =
      .ok ([1, 2, 3, 4, 5, 6, 1, 2, 3, 4, 5, 6, 1, 0, 7, 0xee] ++ List.replicate 4 0xee, 16) := by
  cases s <;> decide

/-- A subframe with two bytes of payload needs no padding. -/
example (a : Mac) : Oblivious (writeAmsdu [toWrite ⟨a, a, [7, 8]⟩]) :=
  (c73_amsdu_iff [⟨a, a, [7, 8]⟩]).mpr (by simp [padding])

/-- With three it does. -/
example (a : Mac) : ¬ Oblivious (writeAmsdu [toWrite ⟨a, a, [7, 8, 9]⟩]) := fun h =>
  absurd ((c73_amsdu_iff [⟨a, a, [7, 8, 9]⟩]).mp h _ List.mem_cons_self) (by simp [padding])

/-- A beacon with two elements and a check sequence. -/
example [Crc32] (h : ManagementFrameHeader) (ssid : SSIDLikeElement) (r : RatesElement) :
    Sends (writeMgmtFrame .Beacon h
      (writeBeaconLike ⟨1, 100, ⟨0⟩, (Chain.link (.typed (ssidElem ssid)) (.last (.typed (supportedRatesElem r)))).obj⟩)
      true) :=
  .mgmtFrame _ _ _ (.beacon _ (.linkTyped _ _ (.ssid ssid) (.lastTyped _ (.supportedRates r)))) _

/-- A data frame that carries an EAPOL frame with a group key. -/
example [Crc32] (h : DataFrameHeader) (s : SnapLlcFrame Obj) (k : EapolKeyFrame Obj) (g : GtkKde)
    (hk : k.key_data = (Chain.last (.typed (gtkElem g))).obj) (hs : s.payload = eapolObj k) :
    Sends (writeDataFrame ⟨h, some (snapObj s)⟩ true) := by
  refine .dataFrame _ (fun p hp => ?_) _
  cases hp
  refine .snap s ?_
  rw [hs]
  refine .eapol k ?_
  rw [hk]
  exact .lastTyped _ (.gtk g)

/-- An RSN element whose count field is filled in after its list: the two bytes that were skipped are not left as they
were. -/
example (s : Bool) :
    letI : ScrollRule := ⟨s⟩
    (writeRsnLists ⟨some .Ccmp128, some [.Ccmp128], none, none, none, none⟩ (List.replicate 13 0xee)) =
      .ok ([1, 0, 0x00, 0x0f, 0xac, 4, 1, 0, 0x00, 0x0f, 0xac, 4, 0xee], 12) := by
  cases s <;> decide

/-- A writer of the user's own that looks at the buffer is not oblivious. -/
example : ¬ Oblivious (fun buf => .ok (buf, 1)) := by
  intro h
  rcases (oblivious_iff_blind _).mp h 1 with ⟨e, h⟩ | h | ⟨bs, hl, h⟩
  · cases h [0] rfl
  · cases h [0] rfl
  · have h0 := h [0] rfl
    have h1 := h [1] rfl
    simp only [Res.ok.injEq, Prod.mk.injEq] at h0 h1
    have e0 := h0.1
    have e1 := h1.1
    rw [← h0.2] at e0 e1
    simp only [List.drop_one, List.tail_cons, List.append_nil] at e0 e1
    rw [← e0] at e1
    cases e1

end Verif
