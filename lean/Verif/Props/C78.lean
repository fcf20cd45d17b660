import Verif.Lemmas.Verdict
import Verif.Model.Frames.Generic
import Verif.Model.Crypto.Eapol
import Verif.Model.Crypto.CryptoHeader
import Verif.Model.Elements.Vendor
import Verif.Props.C05
/-!
# C78: the error of a parser tells a cut input from an invalid one
-/
namespace Verif
open Spec

/-! ## What the verdict gives a receiver -/

/-- The beginning of an accepted input is never called invalid. -/
theorem c78_prefix {α : Type} {r : Reader α} {lo hi : Nat} (h : Verdict r lo hi) (inp more : Bytes)
    (v : α × Nat) (hv : r (inp ++ more) = .ok v) : r inp ≠ .err .badInput := by
  intro hb
  rw [h.final inp hb more] at hv
  cases hv

/-- Whoever waits for more bytes as long as the input is called too short waits for fewer than `hi`
bytes in all. -/
theorem c78_wait {α : Type} {r : Reader α} {lo hi : Nat} (h : Verdict r lo hi) (inp : Bytes) (e : Err)
    (hv : r inp = .err e) (hs : Short e) : inp.length < hi := by
  apply Nat.lt_of_not_le
  intro hl
  have := h.sated inp e hl hv
  subst this
  rcases hs with hs | hs <;> cases hs

/-! ## The parsers -/

variable [ScrollRule]

namespace Spec

/-- The parsers of frame bodies and the number of bytes each needs: that of its fixed fields, and one
more under the strict offset rule where elements follow. -/
inductive BodyNeeds : {α : Type} → Reader α → Nat → Prop
  | associationRequest : BodyNeeds readAssociationRequest (4 + slack)
  | associationResponse : BodyNeeds readAssociationResponse (6 + slack)
  | authentication : BodyNeeds readAuthentication (6 + slack)
  | beacon : BodyNeeds readBeaconLike (12 + slack)
  | disassociation : BodyNeeds readDisassociation (2 + slack)
  | deauthentication : BodyNeeds readDeauthentication (2 + slack)
  | probeRequest : BodyNeeds readProbeRequest slack
  | rawAction : BodyNeeds readRawAction 1
  | vendorAction : BodyNeeds readVendorAction 4
  | meshPeeringOpen : BodyNeeds readMeshPeeringOpen (4 + slack)
  | meshPeeringConfirm : BodyNeeds readMeshPeeringConfirm (6 + slack)
  | meshPeeringClose : BodyNeeds readMeshPeeringClose (2 + slack)

/-- Parsers of fixed fields and the number of bytes each needs. -/
inductive FieldsNeed : {α : Type} → Reader α → Nat → Prop
  | dsss : FieldsNeed readDSSS 1
  | ibss : FieldsNeed readIBSS 2
  | bssLoad : FieldsNeed readBSSLoad 5
  | vhtCapabilities : FieldsNeed readVHTCapabilities 12
  | vhtOperation : FieldsNeed readVHTOperation 5
  | meshConfiguration : FieldsNeed readMeshConfiguration 7
  | bandAndChannel : FieldsNeed readBandAndChannelInfo 2
  | mgmtHeader (f : FCFFlags) : FieldsNeed (readMgmtHeader f) (if f.order then 26 else 22)
  | cryptoHeader : FieldsNeed readCryptoHeader 8
  | rts (f : FCFFlags) : FieldsNeed (readControlFrame .RTS f) 14
  | cts (f : FCFFlags) : FieldsNeed (readControlFrame .CTS f) 8
  | ack (f : FCFFlags) : FieldsNeed (readControlFrame .Ack f) 8

end Spec

private theorem checkSelfProtected_in (code : SelfProtectedActionCode) :
    Rd.In (checkSelfProtected code) 2 2 := by
  unfold checkSelfProtected
  refine Rd.In.bind (lo := 1) (hi := 1) (lo' := 1) (hi' := 1) ((readLE_in 8).gread_pos (by decide)) fun c => ?_
  split
  · exact Rd.In.fail'
  · refine Rd.In.bind (lo := 1) (hi := 1) (lo' := 0) (hi' := 0) ((readLE_in 8).gread_pos (by decide)) fun a => ?_
    split
    · exact Rd.In.fail'
    · exact Rd.In.pure

omit [ScrollRule] in
private theorem aidOfResponse_err (v : BitVec 16) (e : Err) (h : aidOfResponse v = .err e) : e = .badInput := by
  unfold aidOfResponse at h
  split at h
  · cases h
  · split at h
    · cases h
    · cases h; rfl

/-- Each of the bodies: below the number of bytes nothing is accepted, from there on nothing is called
too short, and what is invalid stays invalid. -/
theorem c78_bodies {α : Type} {r : Reader α} {n : Nat} (h : BodyNeeds r n) : Verdict r n n := by
  cases h with
  | associationRequest => exact (Rd.End.weaken (by rd_in) (by omega) (by omega)).run
  | associationResponse =>
    refine Rd.End.run (Rd.End.weaken (lo := 2 + (2 + (2 + (0 + slack)))) (hi := 2 + (2 + (2 + (0 + slack))))
      ?_ (by omega) (by omega))
    apply Rd.End.bind ((readLE_in _).gread_pos (by decide)); intro c
    apply Rd.End.bind ((readLE_in _).gread_pos (by decide)); intro s
    apply Rd.End.bind ((readLE_in _).gread_pos (by decide)); intro a
    apply Rd.End.bind (Rd.In.lift (aidOfResponse_err a)); intro i
    exact Rd.End.map Rd.End.elements
  | authentication => exact (Rd.End.weaken (by rd_in) (by omega) (by omega)).run
  | beacon => exact (Rd.End.weaken (by rd_in) (by omega) (by omega)).run
  | disassociation => exact (Rd.End.weaken (by rd_in) (by omega) (by omega)).run
  | deauthentication => exact (Rd.End.weaken (by rd_in) (by omega) (by omega)).run
  | probeRequest => exact (Rd.End.weaken (by rd_in) (by omega) (by omega)).run
  | rawAction => exact (Rd.End.weaken (by rd_in) (by omega) (by omega)).run
  | vendorAction =>
    refine Rd.End.run (Rd.End.weaken (lo := 1 + 3) (hi := 1 + 3) ?_ (by omega) (by omega))
    apply Rd.End.bind ((readLE_in 8).gread_pos (by decide)); intro c
    split
    · exact Rd.In.fail'.toEnd
    · exact Rd.End.weaken (by rd_in) (by omega) (by omega)
  | meshPeeringOpen =>
    refine Rd.End.run (Rd.End.weaken (lo := 2 + (2 + slack)) (hi := 2 + (2 + slack)) ?_ (by omega) (by omega))
    apply Rd.End.bind (checkSelfProtected_in _); intro _
    exact Rd.End.weaken (by rd_in) (by omega) (by omega)
  | meshPeeringConfirm =>
    refine Rd.End.run (Rd.End.weaken (lo := 2 + (2 + (2 + (0 + slack)))) (hi := 2 + (2 + (2 + (0 + slack))))
      ?_ (by omega) (by omega))
    apply Rd.End.bind (checkSelfProtected_in _); intro _
    apply Rd.End.bind ((readLE_in _).gread_pos (by decide)); intro c
    apply Rd.End.bind ((readLE_in _).gread_pos (by decide)); intro a
    refine Rd.End.bind (Rd.In.lift fun e he => ?_) fun i => Rd.End.map Rd.End.elements
    split at he
    · cases he
    · cases he; rfl
  | meshPeeringClose =>
    refine Rd.End.run (Rd.End.weaken (lo := 2 + slack) (hi := 2 + slack) ?_ (by omega) (by omega))
    apply Rd.End.bind (checkSelfProtected_in _); intro _
    exact Rd.End.map Rd.End.elements

private theorem pread_in {α β : Type} {r : Reader α} {n : Nat} (f : α → β) (h : InReader r n n) (hp : 0 < n) :
    InReader (fun inp => (pread r 0 inp).bind fun a => .ok (f a, n)) n n := by
  have hg := (h.gread_pos hp).bind (f := fun a => pure (f a)) (fun a => Rd.In.pure)
  have e : (fun inp => (pread r 0 inp).bind fun a => .ok (f a, n)) =
      Rd.run (Rd.gread r >>= fun a => pure (f a)) := by
    funext inp
    simp only [pread, Rd.run]
    cases hr : Rd.gread r inp 0 with
    | ok u =>
      have hm := (h.gread_pos hp).moves inp 0 u (Nat.zero_le _) hr
      rw [Rd.bind_of_ok hr]
      show Res.ok (f u.1, n) = Res.ok (f u.1, u.2)
      rw [show n = u.2 by omega]
    | err e => rw [Rd.bind_of_err hr]; rfl
    | panic =>
      show _ = Rd.bind _ _ _ _
      simp only [Rd.bind, hr]; rfl
  rw [e]
  exact hg.run

/-- The same for fixed fields. -/
theorem c78_fields {α : Type} {r : Reader α} {n : Nat} (h : FieldsNeed r n) : Verdict r n n := by
  cases h with
  | dsss => exact (pread_in _ (readLE_in 8) (by decide)).verdict
  | ibss => exact (pread_in _ (readLE_in 16) (by decide)).verdict
  | bssLoad => exact (Rd.In.weaken (by rd_in) (by omega) (by omega)).run.verdict
  | vhtCapabilities => exact (Rd.In.weaken (by rd_in) (by omega) (by omega)).run.verdict
  | vhtOperation => exact (Rd.In.weaken (by rd_in) (by omega) (by omega)).run.verdict
  | meshConfiguration => exact (Rd.In.weaken (by rd_in) (by omega) (by omega)).run.verdict
  | bandAndChannel => exact (Rd.In.weaken (by rd_in) (by omega) (by omega)).run.verdict
  | mgmtHeader f =>
    exact (Rd.In.weaken (by rd_in) (by split <;> omega) (by split <;> omega)).run.verdict
  | cryptoHeader =>
    refine (Rd.In.run (lo := 8 + 0) (hi := 8 + 0) ?_).verdict
    refine Rd.In.bind ((readArr_in 8).gread_pos (by decide)) fun h => ?_
    split
    · exact Rd.In.fail'
    · exact Rd.In.pure
  | rts f => exact (Rd.In.weaken (by rd_in) (by omega) (by omega)).run.verdict
  | cts f => exact (Rd.In.weaken (by rd_in) (by omega) (by omega)).run.verdict
  | ack f => exact (Rd.In.weaken (by rd_in) (by omega) (by omega)).run.verdict

private theorem readDataHeader_in : InReader readDataHeader 24 36 := by
  refine Rd.In.run (lo := 2 + 22) (hi := 2 + 34) ?_
  refine Rd.In.bind ((readLE_in 16).gread_pos (by decide)) fun f => ?_
  dsimp only
  split
  · refine Rd.In.weaken (by rd_in) (by omega) ?_
    repeat' split
    all_goals omega
  · exact Rd.In.fail'

/-- The data header: two bytes tell the type of the frame, and its flags how many more are needed. -/
theorem c78_data_header : Verdict readDataHeader 24 36 := readDataHeader_in.verdict

/-- A data frame without FCS. -/
theorem c78_data_frame [Crc32] : Verdict (readDataFrame false) 24 36 := by
  have h : Verdict readDataFrameBody 24 36 := by
    refine Rd.End.run (lo := 24 + 0) (hi := 36 + 0) ?_
    refine Rd.End.bind (readDataHeader_in.gread_pos (by decide)) fun h => ?_
    split
    · exact Rd.End.map Rd.End.remaining
    · exact Rd.In.pure.toEnd
  exact h

/-- A management frame without FCS, from what is known of its body. -/
theorem c78_mgmt_frame [Crc32] {β : Type} {body : Reader β} {lo hi : Nat} (h : Verdict body lo hi) :
    Verdict (readMgmtFrame body false) (24 + max lo slack) (28 + max hi slack) := by
  have h : Verdict (readMgmtFrameBody body) (24 + max lo slack) (28 + max hi slack) := by
    refine Rd.End.run (Rd.End.weaken (lo := 2 + (22 + max lo slack)) (hi := 2 + (26 + max hi slack)) ?_
      (by omega) (by omega))
    refine Rd.End.bind ((readLE_in 16).gread_pos (by decide)) fun f => ?_
    dsimp only
    split
    · refine Rd.End.bind ((InReader.weaken (Rd.In.run (by rd_in)) ?_ ?_).gread_pos (by decide))
        fun hd => Rd.End.map h.gread
      · omega
      · split <;> omega
    · exact Rd.In.fail'.toEnd
  exact h

/-- In particular the frames with the bodies above. -/
theorem c78_frames [Crc32] {β : Type} {body : Reader β} {n : Nat} (h : BodyNeeds body n) :
    Verdict (readMgmtFrame body false) (24 + n) (28 + n) := by
  have hn : max n slack = n := by
    have := slack_le
    cases h <;> omega
  simpa only [hn] using c78_mgmt_frame (c78_bodies h)

/-- A control frame of another subtype is never rejected. -/
theorem c78_control_other (s : ControlFrameSubtype) (f : FCFFlags) (h : s ≠ .RTS ∧ s ≠ .CTS ∧ s ≠ .Ack) :
    Verdict (readControlFrame s f) 0 0 := by
  obtain ⟨h1, h2, h3⟩ := h
  have hok : ∀ inp, ∃ v, readControlFrame s f inp = .ok v := by
    intro inp
    cases s <;> first | contradiction | exact ⟨_, rfl⟩
  refine ⟨fun inp e he => ?_, fun inp he => ?_, fun _ _ _ => Nat.zero_le _, fun inp e _ he => ?_⟩ <;>
  · obtain ⟨v, hv⟩ := hok inp
    rw [hv] at he
    cases he

/-- An element as such: the second byte says how many more are needed. -/
theorem c78_raw_element : Verdict readRawElement 2 257 := by
  refine (Rd.In.run (Rd.In.weaken (lo := 1 + (1 + (0 + 0))) (hi := 1 + (1 + (255 + 0))) ?_
    (by omega) (by omega))).verdict
  refine Rd.In.bind ((readLE_in 8).gread_pos (by decide)) fun t => ?_
  refine Rd.In.bind ((readLE_in 8).gread_pos (by decide)) fun l => ?_
  refine Rd.In.bind (((readBytes_in _).weaken (Nat.zero_le _) (by have := l.isLt; omega)).gread_pos
    (by decide)) fun _ => Rd.In.pure

/-- The check of the header of a vendor specific action body. -/
theorem c78_vendor_header (oui : Arr 3) : Verdict (Rd.run (stripAndCheckVendorActionHeader oui)) 4 4 := by
  refine (Rd.In.run (Rd.In.weaken (lo := 1 + (3 + 0)) (hi := 1 + (3 + 0)) ?_ (by omega) (by omega))).verdict
  refine Rd.In.bind ((readLE_in 8).gread_pos (by decide)) fun c => ?_
  split
  · exact Rd.In.fail'
  · refine Rd.In.bind ((readArr_in 3).gread_pos (by decide)) fun o => ?_
    split
    · exact Rd.In.fail'
    · exact Rd.In.pure

/-- A subframe of an A-MSDU. -/
theorem c78_subframe : Verdict readSubframe 14 65549 := by
  have h : InReader (Rd.run (do
      let destination_address ← Rd.gread readMac
      let source_address ← Rd.gread readMac
      let length ← Rd.gread (readLE 16)
      let payload ← Rd.gread (readBytes length.toNat)
      pure { destination_address, source_address, payload } : Rd (AMSDUSubframe Bytes))) 14 65549 := by
    refine Rd.In.run (Rd.In.weaken (lo := 6 + (6 + (2 + (0 + 0)))) (hi := 6 + (6 + (2 + (65535 + 0)))) ?_
      (by omega) (by omega))
    refine Rd.In.bind ((readArr_in 6).gread_pos (by decide)) fun d => ?_
    refine Rd.In.bind ((readArr_in 6).gread_pos (by decide)) fun s => ?_
    refine Rd.In.bind ((readLE_in 16).gread_pos (by decide)) fun l => ?_
    refine Rd.In.bind (((readBytes_in _).weaken (Nat.zero_le _) (by have := l.isLt; omega)).gread_pos
      (by decide)) fun _ => Rd.In.pure
  have hmap : ∀ (inp : Bytes) (e : Err), readSubframe inp = .err e → Rd.run (do
      let destination_address ← Rd.gread readMac
      let source_address ← Rd.gread readMac
      let length ← Rd.gread (readLE 16)
      let payload ← Rd.gread (readBytes length.toNat)
      pure { destination_address, source_address, payload } : Rd (AMSDUSubframe Bytes)) inp = .err e := by
    intro inp e he
    simp only [readSubframe] at he
    revert he
    generalize Rd.run _ inp = x
    intro he
    cases x with
    | ok v => cases he
    | err e' => cases he; rfl
    | panic => cases he
  refine ⟨fun inp e he => h.kinds inp e (hmap inp e he), fun inp he more => ?_, fun inp v hv => ?_,
    fun inp e hl he => h.sated inp e hl (hmap inp e he)⟩
  · have := h.final inp (hmap inp _ he) more
    simp only [readSubframe, this]
    rfl
  · simp only [readSubframe] at hv
    have hv' := h.moves inp
    revert hv hv'
    generalize Rd.run _ inp = x
    intro hv hv'
    cases x with
    | ok u => have := hv' u rfl; omega
    | err e' => cases hv
    | panic => cases hv

/-! ## EAPOL key frames -/

namespace Spec

/-- The length an EAPOL frame announces for what follows its four-byte header. -/
def eapolAnnounced (inp : Bytes) : Nat := 256 * (inp.getD 2 0).toNat + (inp.getD 3 0).toNat

end Spec

private theorem readEapolStart_eq (a b c d : Byte) (t : Bytes) :
    readEapolStart (a :: b :: c :: d :: t) 0 =
      if b ≠ 3 then .err .badInput else .ok (fromBE 16 [c, d], 4) := by
  have h1 := RdAt.gread (r := readU8) (inp := a :: b :: c :: d :: t) (a := a) (n := 1)
    (by simp [readLE, fromLE, leNat]) (by have := slack_le; simp; omega) []
  have h2 := RdAt.gread (r := readU8) (inp := b :: c :: d :: t) (a := b) (n := 1)
    (by simp [readLE, fromLE, leNat]) (by have := slack_le; simp; omega) [a]
  have h3 := RdAt.gread (r := readBE 16) (inp := c :: d :: t) (a := fromBE 16 [c, d]) (n := 2)
    (by simp [readBE]) (by have := slack_le; simp; omega) [a, b]
  simp only [List.nil_append, List.length_nil, List.cons_append, List.length_cons, Nat.zero_add] at h1 h2 h3
  simp only [readEapolStart]
  rw [Rd.bind_of_ok h1, Rd.bind_of_ok h2]
  by_cases hb : b = 3
  · simp only [hb, ne_eq, not_true, if_false] at h3 ⊢
    exact h3
  · rw [if_pos hb, if_pos hb]; rfl

private theorem readEapolStart_ok {inp : Bytes} {v : BitVec 16 × Nat} (h4 : 4 ≤ inp.length)
    (h : readEapolStart inp 0 = .ok v) : v.1.toNat = eapolAnnounced inp := by
  match inp, h4 with
  | a :: b :: c :: d :: t, _ =>
    rw [readEapolStart_eq] at h
    split at h
    · cases h
    · cases h
      have hc := c.isLt
      have hd := d.isLt
      simp [eapolAnnounced, fromBE, fromLE, leNat]
      omega

private theorem readEapolStart_in : Rd.In readEapolStart 4 4 := by
  refine Rd.In.weaken (lo := 1 + (1 + 2)) (hi := 1 + (1 + 2)) ?_ (by omega) (by omega)
  refine Rd.In.bind ((readLE_in 8).gread_pos (by decide)) fun _ => ?_
  refine Rd.In.bind ((readLE_in 8).gread_pos (by decide)) fun t => ?_
  split
  · exact Rd.In.fail'
  · exact (readBE_in 16).gread_pos (by decide)

/-- Once the announced bytes are there, what follows changes nothing, whatever the outcome. -/
theorem c78_eapol_delimited (akm : IEEE80211AkmType) (inp more : Bytes) (h4 : 4 ≤ inp.length)
    (h : 4 + eapolAnnounced inp ≤ inp.length) :
    readEapolKeyFrame akm (inp ++ more) = readEapolKeyFrame akm inp := by
  simp only [readEapolKeyFrame, Bind.bind]
  cases hs : readEapolStart inp 0 with
  | ok v =>
    rw [readEapolStart_in.stable _ _ _ hs more]
    have hv := readEapolStart_ok h4 hs
    simp only [Res.bind]
    have hb : pread (readBytes (v.1.toNat + 4)) 0 (inp ++ more) = pread (readBytes (v.1.toNat + 4)) 0 inp := by
      have hi := (readBytes_in (v.1.toNat + 4)).gread_pos (by omega)
      have hr := Rd.gread_of_ok (r := readBytes (v.1.toNat + 4)) (inp := inp) (off := 0)
        (n := v.1.toNat + 4) (a := inp.take (v.1.toNat + 4)) (by have := slack_le; omega)
        (by simp only [List.drop_zero, readBytes]; rw [if_pos (by omega)])
      simp only [pread, hr, hi.stable _ _ _ hr more]
    rw [hb]
  | err e =>
    have := readEapolStart_in.sated _ _ _ (by omega) hs
    subst this
    rw [readEapolStart_in.final _ _ hs more]
    rfl
  | panic =>
    match inp, h4, hs with
    | a :: b :: c :: d :: t, _, hs =>
      rw [readEapolStart_eq] at hs
      split at hs <;> cases hs

/-- An EAPOL key frame called invalid stays so. -/
theorem c78_eapol_final (akm : IEEE80211AkmType) (inp more : Bytes)
    (h : readEapolKeyFrame akm inp = .err .badInput) :
    readEapolKeyFrame akm (inp ++ more) = .err .badInput := by
  simp only [readEapolKeyFrame, Bind.bind] at h ⊢
  cases hs : readEapolStart inp 0 with
  | ok v =>
    rw [hs] at h
    rw [readEapolStart_in.stable _ _ _ hs more]
    simp only [Res.bind, pread] at h ⊢
    have hi := (readBytes_in (v.1.toNat + 4)).gread_pos (by omega)
    cases hg : Rd.gread (readBytes (v.1.toNat + 4)) inp 0 with
    | ok u =>
      rw [hg] at h
      rw [hi.stable _ _ _ hg more]
      exact h
    | err e =>
      rw [hg] at h
      simp only [Res.map] at h
      cases h
      rw [hi.final _ _ hg more]
      rfl
    | panic => rw [hg] at h; cases h
  | err e =>
    rw [hs] at h
    cases h
    rw [readEapolStart_in.final _ _ hs more]
    rfl
  | panic => rw [hs] at h; cases h

/-- An EAPOL frame that is no key frame of the standard is called invalid, not too short: with a different packet type as soon as its
header is there, with a different descriptor as soon as its body is. -/
theorem c78_eapol_foreign (akm : IEEE80211AkmType) (a b c d e : Byte) (t : Bytes)
    (h : b ≠ 3 ∨ e ≠ 2 ∧ 0 < eapolAnnounced (a :: b :: c :: d :: e :: t) ∧
      eapolAnnounced (a :: b :: c :: d :: e :: t) ≤ t.length + 1) :
    readEapolKeyFrame akm (a :: b :: c :: d :: e :: t) = .err .badInput := by
  have hst := readEapolStart_eq a b c d (e :: t)
  by_cases hb : b = 3
  · obtain ⟨h1, h2, h3⟩ := h.resolve_left (fun h => h hb)
    rw [if_neg (fun h => h hb)] at hst
    have hv := readEapolStart_ok (by simp) hst
    simp only at hv
    obtain ⟨n, hn⟩ : ∃ n, (fromBE 16 [c, d]).toNat = n + 1 := ⟨(fromBE 16 [c, d]).toNat - 1, by omega⟩
    have hp : pread (readBytes (n + 1 + 4)) 0 (a :: b :: c :: d :: e :: t) = .ok (a :: b :: c :: d :: e :: t.take n) := by
      have hr := Rd.gread_of_ok (r := readBytes (n + 1 + 4)) (inp := a :: b :: c :: d :: e :: t) (off := 0)
        (n := n + 1 + 4) (a := a :: b :: c :: d :: e :: t.take n) (by have := slack_le; simp; omega)
        (by simp only [List.drop_zero, readBytes]; rw [if_pos (by simp; omega)]; rfl)
      simp only [pread, hr]
      rfl
    have h5 := RdAt.gread (r := readU8) (inp := e :: t.take n) (a := e) (n := 1)
      (by simp [readLE, fromLE, leNat]) (by have := slack_le; simp; omega) [a, b, c, d]
    simp only [List.length_cons, List.length_nil, List.cons_append, List.nil_append] at h5
    simp only [readEapolKeyFrame, hst, Res.ok_bind, hn, hp, readEapolBody]
    rw [Rd.bind_of_ok h5, if_pos h1]
    rfl
  · rw [if_pos hb] at hst
    simp only [readEapolKeyFrame, hst]
    rfl

/-- Concrete cases: a start packet, and a descriptor of the older standard. -/
example : readEapolKeyFrame .Psk [2, 1, 0, 0, 0] = .err .badInput ∧
    readEapolKeyFrame .Psk [2, 3, 0, 2, 254, 0] = .err .badInput :=
  ⟨c78_eapol_foreign _ _ _ _ _ _ _ (.inl (by decide)), c78_eapol_foreign _ _ _ _ _ _ _ (.inr (by decide))⟩

/-- Violation: the length an EAPOL frame announces is taken as it is.  A frame announcing no body is
called too short however many bytes follow, so waiting for more bytes never ends. -/
theorem c78_eapol_waits_forever (akm : IEEE80211AkmType) (more : Bytes) :
    ∃ e, Short e ∧ readEapolKeyFrame akm ([2, 3, 0, 0] ++ more) = .err e := by
  rw [c78_eapol_delimited akm [2, 3, 0, 0] more (by decide) (by decide)]
  rename_i i
  obtain ⟨s⟩ := i
  cases s with
  | false => exact ⟨.tooBig, .inl rfl, rfl⟩
  | true => exact ⟨.badOffset, .inr rfl, rfl⟩

/-! ## Where the error is the wrong one -/

/-- Violation: `GenericFrame::new` calls the first bytes of any frame invalid, although the frame is
accepted once more bytes are there. -/
theorem c78_generic_cut [Crc32] (inp : Bytes) (h : inp.length < 10) :
    GenericFrame.new inp false = .err .badInput ∧
      ∀ more, 10 ≤ inp.length + more.length → GenericFrame.new (inp ++ more) false = .ok ⟨inp ++ more⟩ := by
  refine ⟨?_, fun more hm => ?_⟩
  · show (if inp.length < 10 then (.err .badInput : Res GenericFrame) else .ok ⟨inp⟩) = _
    rw [if_pos h]
  · show (if (inp ++ more).length < 10 then (.err .badInput : Res GenericFrame) else .ok ⟨inp ++ more⟩) = _
    rw [if_neg (by simp only [List.length_append]; omega)]

/-- Violation: so does `match_frames!`. -/
theorem c78_match_cut [Crc32] {α : Type} (inp : Bytes) (arms : List (FrameKind × (Bool → Reader α)))
    (h : inp.length < 10) : matchFrames inp none arms = .err .badInput := by
  have := (c78_generic_cut inp h).1
  simp only [matchFrames, Option.isSome_none, this]
  rfl

/-- With an FCS no input is ever called too short by `strip_and_validate_fcs`, and no rejection is
final: any rejected input becomes valid when its own FCS is appended. -/
theorem c78_fcs_not_final [Crc32] (inp : Bytes) :
    (∀ e, stripAndValidateFcs inp = .err e → e = .badInput) ∧
      stripAndValidateFcs (inp ++ toLE (Crc32.hash inp)) = .ok inp := by
  refine ⟨fun e he => ?_, (c05_accepts_iff _ _).2 rfl⟩
  by_cases h4 : inp.length < 4
  · rw [(c05_short_panics_iff inp).2 h4] at he
    cases he
  · have hd : (inp.drop (inp.length - 4)).length = 4 := by simp only [List.length_drop]; omega
    have ha := List.take_append_drop (inp.length - 4) inp
    by_cases hf : inp.drop (inp.length - 4) = toLE (Crc32.hash (inp.take (inp.length - 4)))
    · rw [(c05_accepts_iff inp (inp.take (inp.length - 4))).2 (by rw [← hf, ha])] at he
      cases he
    · have := c05_rejects_with _ _ hd hf
      rw [ha, he] at this
      cases this
      rfl

omit [ScrollRule] in
/-- Violation: a name longer than thirty-two bytes is called too short a buffer, and stays so. -/
theorem c78_ssid_over_long (inp more : Bytes) (h : 32 < inp.length) :
    readSSID (inp ++ more) = .err .tooBig := by
  simp only [readSSID]
  rw [if_pos (by simp only [List.length_append]; omega)]

/-! ## Concrete cases -/

/-- An association response with AID 3000 is invalid as soon as the AID is there, and not before. -/
example : let _ : ScrollRule := ⟨true⟩
    readAssociationResponse [0x31, 0x04, 0, 0, 0xb8, 0x0b] = .err .badInput ∧
    readAssociationResponse [0x31, 0x04, 0, 0, 0xb8] = .err .tooBig ∧
    readAssociationResponse [0x31, 0x04, 0, 0, 0x01, 0xc0] = .err .badOffset ∧
    (readAssociationResponse [0x31, 0x04, 0, 0, 0x01, 0xc0, 0]).isOk := by decide

/-- A mesh peering confirm with AID 3000. -/
example : let _ : ScrollRule := ⟨false⟩
    readMeshPeeringConfirm [15, 2, 0, 0, 0xb8, 0x0b] = .err .badInput ∧
    readMeshPeeringConfirm [15, 2, 0, 0, 0xb8] = .err .tooBig ∧
    readMeshPeeringConfirm [15, 1] = .err .badInput := by decide

/-- Is it this error? -/
private def errs {α : Type} (x : Res α) (e : Err) : Bool :=
  match x with
  | .err e' => e' == e
  | _ => false

/-- A deauthentication frame cut after each number of bytes: too short until its reason is there.  One
whose type is that of a data frame is invalid from the second byte on. -/
example : let _ : ScrollRule := ⟨false⟩; let _ : Crc32 := ⟨fun _ => 0⟩
    let frame : Bytes := [0xc0, 0] ++ List.replicate 22 0 ++ [7, 0]
    (∀ n < 26, errs (readMgmtFrame readDeauthentication false (frame.take n)) .tooBig) ∧
    (readMgmtFrame readDeauthentication false frame).isOk ∧
    errs (readMgmtFrame readDeauthentication false [0x08, 0]) .badInput ∧
    errs (readDataFrame false [0x08, 0]) .tooBig ∧
    errs (readDataFrame false [0xc0, 0]) .badInput := by decide +kernel

/-- An element announcing three bytes, and a subframe announcing two, both cut by one byte. -/
example : let _ : ScrollRule := ⟨true⟩
    readRawElement [0, 3, 0x61, 0x62] = .err .tooBig ∧
    (readRawElement [0, 3, 0x61, 0x62, 0x63]).isOk ∧
    readSubframe [1, 2, 3, 4, 5, 6, 7, 8, 9, 10, 11, 12, 2, 0, 0xaa] = .err .tooBig ∧
    (readSubframe [1, 2, 3, 4, 5, 6, 7, 8, 9, 10, 11, 12, 2, 0, 0xaa, 0xbb]).isOk := by decide

/-- An EAPOL frame which is not a key frame is invalid from its second field on. -/
example : let _ : ScrollRule := ⟨false⟩
    readEapolKeyFrame .Psk [2, 1] = .err .badInput ∧
    readEapolKeyFrame .Psk [2, 3, 0] = .err .tooBig ∧
    readEapolKeyFrame .Psk [2, 3, 0, 1, 9] = .err .badInput := by decide

end Verif
