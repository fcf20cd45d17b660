import Verif.Props.C40
import Verif.Props.C63
import Verif.Props.C66
/-!
# C72: a whole four-way handshake

Authenticator and supplicant each run the functions of the crate: deriving and partitioning the PTK, serialising and
deserialising protected EAPOL frames, looking up elements.  The order of the four messages is that of the
standard (12.7.6); it is not in the crate, which leaves it to its caller, and is written down here.
-/
namespace Verif

namespace Spec

/-- A message to be sent: header of the data frame, OUI of the SNAP header, key frame. -/
structure Message (κ : Type) where
  header : DataFrameHeader
  oui : Arr 3
  frame : EapolKeyFrame κ

/-- The message with this nonce. -/
def Message.withNonce {κ : Type} (m : Message κ) (nonce : Arr 32) : Message κ :=
  { m with frame := { m.frame with key_nonce := nonce } }

/-- What is sent, as bytes. -/
def sendFrame [ScrollRule] [Crc32] [HmacSha1] [AesKw] (kck kek : Option (Arr 16)) (m : Message Obj) (buf : Bytes)
    (temp : Nat) : Res Bytes := do
  let (b, n) ← serializeEapolDataFrame kck kek ⟨m.header, some ⟨m.oui, 0x888e, m.frame⟩⟩ buf temp
  pure (b.take n)

/-- Key data that is given as bytes. -/
def Message.ofBytes (m : Message Bytes) : Message Obj :=
  { m with frame := { m.frame with key_data := bytesObj m.frame.key_data } }

/-- Key data that is given as a chain of elements. -/
def Message.ofChain [ScrollRule] (m : Message Chain) : Message Obj :=
  { m with frame := { m.frame with key_data := ⟨m.frame.key_data.write, m.frame.key_data.measure⟩ } }

/-- The nonce in a received frame, read without any key: data frame, SNAP header of eight bytes, key frame. -/
def nonceIn [ScrollRule] [Crc32] (akm : IEEE80211AkmType) (frame : Bytes) : Res (Arr 32) := do
  let (d, _) ← readDataFrame false frame
  let p ← Res.ofOption EapolSerdeError.NoPayload.code d.payload
  let (f, _) ← readEapolKeyFrame akm (p.drop 8)
  pure f.key_nonce

/-- The three keys of a PTK, if the first two have 16 bytes. -/
def keysOf (akm : IEEE80211AkmType) (cipher : IEEE80211CipherSuiteSelector) (ptk : Bytes) :
    Res (Arr 16 × Arr 16 × Bytes) :=
  match partitionPtk ptk akm cipher with
  | some (kck, kek, tk) =>
    if h : kck.length = 16 ∧ kek.length = 16 then .ok (⟨kck, h.1⟩, ⟨kek, h.2⟩, tk)
    else .err EapolSerdeError.MissingKey.code
  | none => .err EapolSerdeError.UnknownAkmSuite.code

/-- What the two sides have after the handshake: their temporal keys, the messages as received and, at the
supplicant, the group key and the RSN element. -/
structure Outcome where
  tkA : Bytes
  tkS : Bytes
  gtk : Option GtkKde
  rsn : Option RsnElement.Parsed
  received : List (EapolKeyFrame Bytes)

/-- The handshake.  `pmkA` is the PMK of the authenticator and `pmkS` that of the supplicant; each side
generates a nonce and learns the other's from a message. -/
def handshake [ScrollRule] [Crc32] [HmacSha1] [AesKw] (akm : IEEE80211AkmType)
    (cipher : IEEE80211CipherSuiteSelector) (n : Nat) (buf : Bytes) (temp : Nat) (pmkA pmkS : Bytes) (aa spa : Mac)
    (an sn : Arr 32) (m1 m2 m4 : Message Bytes) (m3 : Message Chain) : Res Outcome := do
  let f1 ← sendFrame none none (m1.withNonce an).ofBytes buf temp
  let r1 ← deserializeEapolDataFrame none none f1 temp akm false
  let (kckS, kekS, tkS) ← keysOf akm cipher (derivePtk pmkS aa spa r1.key_nonce sn n)
  let f2 ← sendFrame (some kckS) (some kekS) (m2.withNonce sn).ofBytes buf temp
  let sn' ← nonceIn akm f2
  let (kckA, kekA, tkA) ← keysOf akm cipher (derivePtk pmkA aa spa an sn' n)
  let r2 ← deserializeEapolDataFrame (some kckA) (some kekA) f2 temp akm false
  let f3 ← sendFrame (some kckA) (some kekA) (m3.withNonce an).ofChain buf temp
  let r3 ← deserializeEapolDataFrame (some kckS) (some kekS) f3 temp akm false
  let gtk ← getFirstElement r3.key_data gtkKind
  let rsn ← getFirstElement r3.key_data rsnKind
  let f4 ← sendFrame (some kckS) (some kekS) m4.ofBytes buf temp
  let r4 ← deserializeEapolDataFrame (some kckA) (some kekA) f4 temp akm false
  pure { tkA, tkS, gtk, rsn, received := [r1, r2, r3, r4] }

/-- What a message with unencrypted key data has to satisfy: a data frame with payload, its MIC field 16
zeros, and key data that fits (under the strict offset rule of `scroll`, some key data). -/
structure Message.Plain [ScrollRule] (m : Message Bytes) (buf : Bytes) (temp : Nat) : Prop where
  valid : ValidData m.header
  consistent : HeaderConsistent m.header
  payload : payloadSubtype m.header.subtype
  mic : m.frame.key_mic = List.replicate 16 0
  plain : m.frame.key_information.encrypted_key_data = false
  some : slack ≤ m.frame.key_data.length
  temp : m.frame.key_data.length + 24 ≤ temp
  fits : m.frame.key_data.length + 119 < 65536
  buffer : m.header.lengthInBytes + m.frame.key_data.length + 131 ≤ buf.length

end Spec

open Spec

variable [ScrollRule] [Crc32] [HmacSha1]

/-- A message with plain key data reaches a receiver with the same keys. -/
theorem message_exchange [AesKw] [LawfulAesKw] {m : Message Bytes} {buf : Bytes} {temp : Nat} (hp : m.Plain buf temp)
    (kck kek : Option (Arr 16)) (akm : IEEE80211AkmType) (ha : akm.keyMicLen = some 16)
    (hk : m.frame.key_information.key_mic = true → kck.isSome) :
    ∃ f mic, sendFrame kck kek m.ofBytes buf temp = .ok f ∧
      f = eapolPrefix m.header m.oui 0x888e ++ eapolWire 2 { m.frame with key_mic := mic } (Arr.zero 8).val
        m.frame.key_data ∧
      wireMic kck m.frame.key_information.key_mic m.frame m.frame.key_data = some mic ∧ mic.length = 16 ∧
      deserializeEapolDataFrame kck kek f temp akm false = .ok { m.frame with key_mic := mic } ∧
      nonceIn akm f = .ok m.frame.key_nonce := by
  obtain ⟨hv, hc, hpay, h0, henc, hs, ht, hl, hb⟩ := hp
  have h16 : m.frame.key_mic.length = 16 := by rw [h0]; simp
  obtain ⟨out, mic, hser, ⟨kd, hkd, hm, ho⟩, _, hdes⟩ := c39_round_trip_partial kck kek m.header hv hc m.oui m.frame akm
    (by rw [ha, h16]) (fun h => ⟨h0, hk h⟩) (fun h => by rw [henc] at h; cases h) hs buf temp ht (by omega) (by omega)
  have hkd' : kd = m.frame.key_data := by
    simp only [wireKeyData, henc, Bool.false_eq_true, false_and, if_false, Option.some.injEq] at hkd
    exact hkd.symm
  subst hkd'
  have hml : mic.length = 16 := by
    unfold wireMic at hm
    split at hm
    · cases kck with
      | none => cases hm
      | some k => cases hm; simp
    · cases hm; exact h16
  have h1 := hdes (Arr.zero 4) false
  simp only [Bool.false_eq_true, if_false, List.append_nil, henc] at h1
  have hw : out = dataFrameWire m.header (snapWire m.oui 0x888e (eapolWire 2 { m.frame with key_mic := mic }
      (Arr.zero 8).val m.frame.key_data)) := by
    rw [ho]; simp [dataFrameWire, eapolPrefix, snapWire]
  refine ⟨out, mic, ?_, ho, hm, hml, h1, ?_⟩
  · show (serializeEapolDataFrame _ _ _ _ _ >>= _) = _
    unfold Message.ofBytes
    rw [hser]
    simp
  · have hr := c49_read ⟨m.header, some (snapWire m.oui 0x888e (eapolWire 2 { m.frame with key_mic := mic }
      (Arr.zero 8).val m.frame.key_data))⟩ hv hc (by simp [PayloadConsistent, hpay]) false
    simp only [Option.getD_some] at hr
    rw [← hw] at hr
    have hr' : readDataFrame false out = _ := hr
    unfold nonceIn
    rw [hr']
    have hdrop : (snapWire m.oui 0x888e (eapolWire 2 { m.frame with key_mic := mic } (Arr.zero 8).val
        m.frame.key_data)).drop 8 = eapolWire 2 { m.frame with key_mic := mic } (Arr.zero 8).val
        m.frame.key_data := by
      rw [snapWire, ← List.append_assoc]
      exact List.drop_left' (l₁ := 0xaa :: 0xaa :: 0x03 :: (m.oui.val ++ toBE (0x888e : BitVec 16))) (by simp)
    have h37 := c37_read akm 2 { m.frame with key_mic := mic } (Arr.zero 8) [] [] (by rw [ha, hml])
      (by simp [hml]; omega) (by simpa using hs)
    simp only [List.length_nil, Nat.add_zero, List.append_nil] at h37
    show (readEapolKeyFrame akm (List.drop 8 _) >>= _) = _
    rw [hdrop]
    unfold eapolWire
    rw [h37]
    rfl

omit [ScrollRule] [Crc32] in
/-- The keys of a derived PTK. -/
private theorem keys_derived (pmk : Bytes) (aa spa : Mac) (an sn : Arr 32) (akm : IEEE80211AkmType)
    (cipher : IEEE80211CipherSuiteSelector) (n : Nat) (hn : ptkLen akm cipher = some n)
    (hkck : akm.kckLen = some 16) (hkek : akm.kekLen = some 16) :
    ∃ (kck kek : Arr 16) (tk : Bytes), keysOf akm cipher (derivePtk pmk aa spa an sn n) = .ok (kck, kek, tk) ∧
      partitionPtk (derivePtk pmk aa spa an sn n) akm cipher = some (kck.val, kek.val, tk) ∧
      kck.val ++ (kek.val ++ tk) = derivePtk pmk aa spa an sn n := by
  obtain ⟨kck, kek, tk, hp, hall⟩ := c36_derived pmk aa spa an sn akm cipher n hn
  obtain ⟨_, e1, e2, _⟩ := (c36_partition _ akm cipher kck kek tk).1 hp
  rw [hkck, Option.some.injEq] at e1
  rw [hkek, Option.some.injEq] at e2
  refine ⟨⟨kck, e1.symm⟩, ⟨kek, e2.symm⟩, tk, ?_, hp, hall⟩
  rw [keysOf, hp]
  simp only
  rw [dif_pos ⟨e1.symm, e2.symm⟩]

/-- The handshake between two sides with the same PMK succeeds: both have the same temporal key, which is the rest of
the PTK behind KCK and KEK; the supplicant has the group key and the RSN element that the authenticator sent; and
every message was received with the fields it was sent with, the first, second and last with their key data. -/
theorem c72_handshake_partial (akm : IEEE80211AkmType) (cipher : IEEE80211CipherSuiteSelector) (n : Nat)
    (hn : ptkLen akm cipher = some n) (hkck : akm.kckLen = some 16) (hkek : akm.kekLen = some 16)
    (hmic : akm.keyMicLen = some 16) (buf : Bytes) (temp : Nat) (pmk : Bytes) (aa spa : Mac) (an sn : Arr 32)
    (m1 m2 m4 : Message Bytes) (m3 : Message Chain)
    (h1 : m1.Plain buf temp) (h2 : m2.Plain buf temp) (h4 : m4.Plain buf temp)
    (hm1 : m1.frame.key_information.key_mic = false)
    (hv : ValidData m3.header) (hc : HeaderConsistent m3.header) (h0 : m3.frame.key_mic = List.replicate 16 0)
    (henc : m3.frame.key_information.encrypted_key_data = true)
    (e : RsnElement.OfLists) (hwf : RsnWf e) (hs : RsnSmall e) (hca : RsnCanonical e) (he : RsnEndOk e)
    (hm : ∀ l, e.pmkid_list = some l → l = []) (hle : (rsnWire 1 e).length ≤ 255)
    (g : GtkKde) (hg : g.gtk.length ≤ 249)
    (hd : m3.frame.key_data = .link (.typed (rsnElem e)) (.last (.typed (gtkElem g))))
    (ht : 600 ≤ temp) (hb : m3.header.lengthInBytes + 700 ≤ buf.length) :
    letI := realKw
    ∃ o, handshake akm cipher n buf temp pmk pmk aa spa an sn m1 m2 m4 m3 = .ok o ∧
      o.tkA = o.tkS ∧ (∃ kck kek : Arr 16, kck.val ++ (kek.val ++ o.tkA) = derivePtk pmk aa spa an sn n) ∧
      o.gtk = some g ∧ (∃ q, o.rsn = some q ∧ RsnSame q e) ∧
      ∃ mic2 mic3 data3 mic4, o.received = [
        (m1.withNonce an).frame,
        { (m2.withNonce sn).frame with key_mic := mic2 },
        { (m3.withNonce an).frame with key_mic := mic3, key_data := data3 },
        { m4.frame with key_mic := mic4 }] := by
  letI := realKw
  haveI := c60_lawful
  obtain ⟨kck, kek, tk, hkeys, hpart, hall⟩ := keys_derived pmk aa spa an sn akm cipher n hn hkck hkek
  have p1 : (m1.withNonce an).Plain buf temp := ⟨h1.1, h1.2, h1.3, h1.4, h1.5, h1.6, h1.7, h1.8, h1.9⟩
  have p2 : (m2.withNonce sn).Plain buf temp := ⟨h2.1, h2.2, h2.3, h2.4, h2.5, h2.6, h2.7, h2.8, h2.9⟩
  obtain ⟨f1, mic1, s1, -, w1, -, d1, -⟩ := message_exchange p1 none none akm hmic
    (fun h => by rw [show (m1.withNonce an).frame.key_information.key_mic = false from hm1] at h; cases h)
  have e1 : mic1 = (m1.withNonce an).frame.key_mic := by
    have hm1' : (m1.withNonce an).frame.key_information.key_mic = false := hm1
    simp only [wireMic, hm1', Bool.false_eq_true, if_false, Option.some.injEq] at w1
    exact w1.symm
  subst e1
  obtain ⟨f2, mic2, s2, -, -, -, d2, n2⟩ := message_exchange p2 (some kck) (some kek) akm hmic (fun _ => rfl)
  obtain ⟨f4, mic4, s4, -, -, -, d4, -⟩ := message_exchange h4 (some kck) (some kek) akm hmic (fun _ => rfl)
  obtain ⟨kck', kek', tk', q1, -, out, s3, r, q, d3, ⟨mic3, data3, rfl⟩, l1, l2, hsame⟩ :=
    c63_group_key_partial pmk aa spa an sn akm
    cipher n hn hkck hkek hmic m3.header hv hc m3.oui (m3.withNonce an).frame h0 henc e hwf hs hca he hm hle g hg hd
    buf temp ht hb
  rw [hpart] at q1
  simp only [Option.some.injEq, Prod.mk.injEq] at q1
  obtain ⟨q1, q2, -⟩ := q1
  cases Subtype.ext q1
  cases Subtype.ext q2
  have s3' : sendFrame (some kck) (some kek) (m3.withNonce an).ofChain buf temp = .ok out := by
    show (serializeEapolDataFrame _ _ _ _ _ >>= _) = _
    unfold Message.ofChain
    rw [show (m3.withNonce an).header = m3.header from rfl, show (m3.withNonce an).oui = m3.oui from rfl, s3]
    simp
  refine ⟨⟨tk, tk, some g, some q, [_, _, _, _]⟩, ?_, rfl, ⟨kck, kek, hall⟩, rfl, ⟨q, rfl, hsame⟩,
    mic2, mic3, data3, mic4, rfl⟩
  unfold handshake
  simp only [s1, d1, Res.ok_bind]
  rw [show (m1.withNonce an).frame.key_nonce = an from rfl, hkeys]
  simp only [s2, n2, Res.ok_bind]
  rw [show (m2.withNonce sn).frame.key_nonce = sn from rfl, hkeys]
  simp only [d2, s3', d3, l1, l2, s4, d4, Res.ok_bind]
  rfl

omit [Crc32] in
/-- A key frame with 16 bytes of MIC that are not the ones for the receiver's key is refused for its MIC. -/
theorem message_refused [AesKw] (kck : Arr 16) (kek : Option (Arr 16)) (h : DataFrameHeader) (hv : ValidData h)
    (hc : HeaderConsistent h) (oui : Arr 3) (f : EapolKeyFrame Bytes) (mic data : Bytes) (temp : Nat)
    (akm : IEEE80211AkmType) (ha : akm.keyMicLen = some 16) (hf : f.key_information.key_mic = true)
    (h0 : f.key_mic = List.replicate 16 0) (hl : mic.length = 16)
    (hne : (HmacSha1.hmac kck.val (eapolWire 2 f (Arr.zero 8).val data)).val.take 16 ≠ mic) :
    deserializeEapolDataFrame (some kck) kek (eapolPrefix h oui 0x888e ++
      eapolWire 2 { f with key_mic := mic } (Arr.zero 8).val data) temp akm false =
      .err EapolSerdeError.InvalidMic.code := by
  generalize hA : eapolPrefix h oui 0x888e = A
  have hAl : A.length = h.lengthInBytes + 8 := by
    rw [← hA, c27_length]
    simp [eapolPrefix, snapWire]
    omega
  obtain ⟨P, hP, hPA⟩ : ∃ P : Bytes, P.length = h.lengthInBytes + 6 ∧ A = P ++ [0x88, 0x8e] := by
    refine ⟨frameStart (.Data h.subtype) h.fcf_flags ++ (dataHeaderWire h ++ (0xaa :: 0xaa :: 0x03 :: oui.val)),
      ?_, ?_⟩
    · rw [c27_length]; simp; omega
    · rw [← hA, eapolPrefix, snapWire, show toBE (0x888e : BitVec 16) = [0x88, 0x8e] by decide]; simp
  have hhead : ∀ w : Bytes, ∃ n, readDataHeader (A ++ w) = .ok (h, n) := by
    intro w
    refine ⟨2 + (dataHeaderWire h).length, ?_⟩
    rw [← hA, eapolPrefix]
    simp only [List.append_assoc]
    exact c27_round_trip h hv hc _
  have hbits : (toBE f.key_information.bits)[0]? = some (f.key_information.bits.extractLsb' 8 8) := by
    show some (BitVec.ofNat 8 (f.key_information.bits.toNat / 256)) = _
    rw [Option.some.injEq]
    apply BitVec.eq_of_toNat_eq
    simp [BitVec.extractLsb'_toNat, Nat.shiftRight_eq_div_pow]
  -- the frame in pieces: what is before the MIC, and what is behind it
  generalize hF : eapolFields f (Arr.zero 8).val = F
  have hFl : F.length = 77 := by rw [← hF]; simp [eapolFields]
  obtain ⟨n, hn⟩ := hhead (eapolWire 2 { f with key_mic := mic } (Arr.zero 8).val data)
  have hpieces : eapolWire 2 { f with key_mic := mic } (Arr.zero 8).val data =
      (2 :: 3 :: (toBE (BitVec.ofNat 16 (79 + 16 + data.length)) ++ F)) ++ (mic ++
        (toBE (BitVec.ofNat 16 data.length) ++ data)) := by
    simp [eapolWire, hl, ← hF, eapolFields]
  have hzero : eapolWire 2 f (Arr.zero 8).val data =
      (2 :: 3 :: (toBE (BitVec.ofNat 16 (79 + 16 + data.length)) ++ F)) ++ (List.replicate 16 0 ++
        (toBE (BitVec.ofNat 16 data.length) ++ data)) := by
    rw [eapolWire, h0, hF, List.length_replicate]; simp
  have hw : ∀ x : Bytes, withoutFcs x false = x := fun x => by simp [withoutFcs]
  have h5 : (eapolWire 2 { f with key_mic := mic } (Arr.zero 8).val data)[5]? =
      some (f.key_information.bits.extractLsb' 8 8) := by
    rw [← hbits]
    simp only [eapolWire, eapolFields]
    have hI : (toBE f.key_information.bits).length = 2 := by simp
    have hL : (toBE (BitVec.ofNat 16 (79 + mic.length + data.length))).length = 2 := by simp
    generalize toBE (BitVec.ofNat 16 (79 + mic.length + data.length)) = L at *
    generalize toBE f.key_information.bits = I at *
    match L, hL, I, hI with
    | [a, b], _, [c, d], _ => rfl
  have := c40_mismatch_partial (some kck) kek (A ++ eapolWire 2 { f with key_mic := mic } (Arr.zero 8).val data) temp akm false
    (by simp) h n A.length (by rw [hw]; exact hn) hAl
    (by rw [hw, hPA, List.append_assoc, List.getElem?_append_right (by omega), hP, Nat.sub_self]; rfl)
    (by rw [hw, hPA, List.append_assoc, List.getElem?_append_right (by omega), hP, Nat.add_sub_add_left]; rfl)
    (f.key_information.bits.extractLsb' 8 8)
    (by rw [hw, List.getElem?_append_right (by omega), Nat.add_sub_cancel_left, h5])
    (by
      have : f.key_information.bits.getLsbD 8 = true := hf
      simpa using this)
    16 ha (by decide)
    (by rw [hw, hpieces]; simp [hFl, hl]; omega)
    (by
      rintro c hc
      cases hc
      rw [hw, MicMatches, List.drop_left, zeroed]
      intro hm
      apply hne
      have hQ : (2 :: 3 :: (toBE (BitVec.ofNat 16 (79 + 16 + data.length)) ++ F)).length = 81 := by simp [hFl]
      rw [hpieces, List.drop_left' hQ, List.take_left' hl, List.take_left' hQ, ← List.append_assoc (_ :: _) mic,
        List.drop_left' (by rw [List.length_append, hQ, hl]), List.append_assoc, ← hzero] at hm
      exact hm.symm)
  simpa using this

/-- Two sides with different PMKs: whether the handshake gets past message 2 depends only on the MIC.  If the MIC of
message 2 under the KCK of the authenticator is not the one that the supplicant inserted, the authenticator refuses
the message for its MIC, whatever the other messages are. -/
theorem c72_wrong_pmk (akm : IEEE80211AkmType) (cipher : IEEE80211CipherSuiteSelector) (n : Nat)
    (hn : ptkLen akm cipher = some n) (hkck : akm.kckLen = some 16) (hkek : akm.kekLen = some 16)
    (hmic : akm.keyMicLen = some 16) (buf : Bytes) (temp : Nat) (pmkA pmkS : Bytes) (aa spa : Mac) (an sn : Arr 32)
    (m1 m2 m4 : Message Bytes) (m3 : Message Chain) (h1 : m1.Plain buf temp) (h2 : m2.Plain buf temp)
    (hm1 : m1.frame.key_information.key_mic = false) (hm2 : m2.frame.key_information.key_mic = true)
    (hne : let signed := eapolWire 2 (m2.withNonce sn).frame (Arr.zero 8).val m2.frame.key_data
      (HmacSha1.hmac ((derivePtk pmkA aa spa an sn n).take 16) signed).val.take 16 ≠
        (HmacSha1.hmac ((derivePtk pmkS aa spa an sn n).take 16) signed).val.take 16) :
    letI := realKw
    handshake akm cipher n buf temp pmkA pmkS aa spa an sn m1 m2 m4 m3 = .err EapolSerdeError.InvalidMic.code := by
  letI := realKw
  haveI := c60_lawful
  obtain ⟨kckS, kekS, tkS, hkeysS, _, hallS⟩ := keys_derived pmkS aa spa an sn akm cipher n hn hkck hkek
  obtain ⟨kckA, kekA, tkA, hkeysA, _, hallA⟩ := keys_derived pmkA aa spa an sn akm cipher n hn hkck hkek
  have p1 : (m1.withNonce an).Plain buf temp := ⟨h1.1, h1.2, h1.3, h1.4, h1.5, h1.6, h1.7, h1.8, h1.9⟩
  have p2 : (m2.withNonce sn).Plain buf temp := ⟨h2.1, h2.2, h2.3, h2.4, h2.5, h2.6, h2.7, h2.8, h2.9⟩
  obtain ⟨f1, mic1, s1, -, -, -, d1, -⟩ := message_exchange p1 none none akm hmic
    (fun h => by rw [show (m1.withNonce an).frame.key_information.key_mic = false from hm1] at h; cases h)
  obtain ⟨f2, mic2, s2, o2, w2, l2, d2, n2⟩ := message_exchange p2 (some kckS) (some kekS) akm hmic (fun _ => rfl)
  have hA : (derivePtk pmkA aa spa an sn n).take 16 = kckA.val := by rw [← hallA]; exact List.take_left' kckA.2
  have hS : (derivePtk pmkS aa spa an sn n).take 16 = kckS.val := by rw [← hallS]; exact List.take_left' kckS.2
  rw [hA, hS] at hne
  have hm2' : (m2.withNonce sn).frame.key_information.key_mic = true := hm2
  have h0 : (m2.withNonce sn).frame.key_mic = List.replicate 16 0 := h2.mic
  have hml : (m2.withNonce sn).frame.key_mic.length = 16 := by rw [h0]; simp
  simp only [wireMic, hm2', hml, if_true, Option.map_some, Option.some.injEq] at w2
  -- the frame is refused
  have hrej : deserializeEapolDataFrame (some kckA) (some kekA) f2 temp akm false =
      .err EapolSerdeError.InvalidMic.code := by
    rw [o2]
    exact message_refused kckA (some kekA) m2.header h2.valid h2.consistent m2.oui (m2.withNonce sn).frame mic2 _ temp akm hmic
      hm2' h0 l2 (by rw [← w2]; exact hne)
  unfold handshake
  simp only [s1, d1, Res.ok_bind]
  rw [show (m1.withNonce an).frame.key_nonce = an from rfl, hkeysS]
  simp only [s2, n2, Res.ok_bind]
  rw [show (m2.withNonce sn).frame.key_nonce = sn from rfl, hkeysA]
  simp only [hrej, Res.ok_bind]
  rfl

omit [Crc32] in
/-- Under the strict offset rule a key frame with empty, unencrypted key data is not accepted. -/
theorem message_empty_refused [AesKw] (hs : slack = 1) (kck kek : Option (Arr 16)) (h : DataFrameHeader)
    (hv : ValidData h) (hc : HeaderConsistent h) (oui : Arr 3) (f : EapolKeyFrame Bytes) (temp : Nat)
    (akm : IEEE80211AkmType) (ha : akm.keyMicLen = some f.key_mic.length) (hm : f.key_mic.length = 16)
    (henc : f.key_information.encrypted_key_data = false) (g : EapolKeyFrame Bytes) :
    deserializeEapolDataFrame kck kek (eapolPrefix h oui 0x888e ++ eapolWire 2 f (Arr.zero 8).val []) temp akm false ≠
      .ok g := by
  intro hd
  generalize hA : eapolPrefix h oui 0x888e = A at hd
  have hAl : A.length = h.lengthInBytes + 8 := by
    rw [← hA, c27_length]
    simp [eapolPrefix, snapWire]
    omega
  have hhead : readDataHeader (A ++ eapolWire 2 f (Arr.zero 8).val []) = .ok (h, 2 + (dataHeaderWire h).length) := by
    rw [← hA, eapolPrefix]
    simp only [List.append_assoc]
    exact c27_round_trip h hv hc _
  simp only [deserializeEapolDataFrame, Bool.false_eq_true, if_false] at hd
  unfold deserializeEapol at hd
  obtain ⟨h', hh, hd⟩ := Res.bind_eq_ok hd
  obtain ⟨_, n, hr⟩ := pread_ok (Res.mapErr_ok hh)
  rw [List.drop_zero, hhead] at hr
  cases hr
  obtain ⟨_, _, hd⟩ := Res.bind_eq_ok hd
  obtain ⟨_, _, hd⟩ := Res.bind_eq_ok hd
  split at hd
  · cases hd
  dsimp only at hd
  obtain ⟨tl, htl, hd⟩ := Res.bind_eq_ok hd
  obtain ⟨bits, hbits, hd⟩ := Res.bind_eq_ok hd
  obtain ⟨_, _, hd⟩ := Res.bind_eq_ok hd
  obtain ⟨_, _, hd⟩ := Res.bind_eq_ok hd
  obtain ⟨buf', hunw, hd⟩ := Res.bind_eq_ok hd
  obtain ⟨hsl5, n', hread⟩ := pread_ok (Res.mapErr_ok hd)
  have hflag : (⟨bits⟩ : KeyInformation) = f.key_information := by
    rw [slice] at htl
    split at htl
    · cases htl
      have h5 : List.drop (h.lengthInBytes + 8 + 5) (A ++ eapolWire 2 f (Arr.zero 8).val []) =
          toBE f.key_information.bits ++ (eapolWire 2 f (Arr.zero 8).val []).drop 7 := by
        rw [← hAl, ← List.drop_drop, List.drop_left]
        have hL : (toBE (BitVec.ofNat 16 (79 + f.key_mic.length + ([] : Bytes).length))).length = 2 := by simp
        have hI : (toBE f.key_information.bits).length = 2 := by simp
        simp only [eapolWire, eapolFields]
        generalize toBE (BitVec.ofNat 16 (79 + f.key_mic.length + ([] : Bytes).length)) = L at *
        generalize toBE f.key_information.bits = I at *
        match L, hL, I, hI with
        | [a, b], _, [c, d], _ => rfl
      rw [List.take_of_length_le (by simp), h5] at hbits
      have hq := preadBE_mid [] ((eapolWire 2 f (Arr.zero 8).val []).drop 7) f.key_information.bits (p := 0) rfl
      rw [List.nil_append] at hq
      rw [hq] at hbits
      cases hbits
      rfl
    · cases htl
  rw [hflag, unwrapStep, henc] at hunw
  simp only [Bool.false_eq_true, if_false] at hunw
  cases hunw
  rw [← hAl, List.drop_left] at hread
  obtain ⟨e, he⟩ := c37_empty_strict hs akm 2 f (Arr.zero 8) [] ha (by omega)
  rw [List.append_nil, hread] at he
  cases he

/-- Sending a message whose key data is empty and not encrypted. -/
theorem message_send_empty [AesKw] {m : Message Bytes} {buf : Bytes} {temp : Nat} {kck kek : Option (Arr 16)}
    {out : Bytes} (hv : ValidData m.header) (h16 : m.frame.key_mic.length = 16)
    (henc : m.frame.key_information.encrypted_key_data = false) (hd : m.frame.key_data = []) (ht : 24 ≤ temp)
    (hb : m.header.lengthInBytes + 108 ≤ buf.length) (hk : m.frame.key_information.key_mic = true → kck.isSome)
    (hs : sendFrame kck kek m.ofBytes buf temp = .ok out) :
    ∃ mic : Bytes, mic.length = 16 ∧
      out = eapolPrefix m.header m.oui 0x888e ++ eapolWire 2 { m.frame with key_mic := mic } (Arr.zero 8).val [] := by
  have hsl := slack_le
  obtain ⟨mic, hmic, hml⟩ : ∃ mic, wireMic kck m.frame.key_information.key_mic m.ofBytes.frame [] = some mic ∧
      mic.length = 16 := by
    unfold wireMic
    rw [show m.ofBytes.frame.key_mic = m.frame.key_mic from rfl, if_pos h16]
    cases hf : m.frame.key_information.key_mic with
    | false => exact ⟨_, rfl, h16⟩
    | true =>
      cases kck with
      | none => exact absurd (hk hf) (by simp)
      | some k => exact ⟨_, rfl, by simp⟩
  obtain ⟨o, ho, hser⟩ := c39_serialise kck kek m.header ⟨m.oui, 0x888e, m.ofBytes.frame⟩ hv [] 0
    (by
      show Emits (bytesObj m.frame.key_data).write [] 0
      rw [hd]
      exact Emits.bytes [])
    [] mic (by
      show wireKeyData kek m.frame.key_information.encrypted_key_data [] = some []
      rw [henc]; rfl)
    hmic buf temp (by simpa using ht) (by show 79 + m.frame.key_mic.length + _ < _; simp [h16])
    (by show _ + 91 + m.frame.key_mic.length + _ ≤ _; simp [h16]; omega)
  refine ⟨mic, hml, ?_⟩
  unfold sendFrame at hs
  rw [show m.ofBytes.header = m.header from rfl, show m.ofBytes.oui = m.oui from rfl, hser, Res.ok_bind] at hs
  have hs : List.take o.length (o ++ buf.drop o.length) = out := by cases hs; rfl
  rw [← hs, List.take_left, ho]
  simp [eapolWire, eapolFields, Message.ofBytes]

/-- Violation: under the strict offset rule a handshake whose first or last message has no key data, as the standard
has it, never succeeds: the crate does not read such a message back. -/
theorem c72_no_key_data_strict (hs : slack = 1) (akm : IEEE80211AkmType) (cipher : IEEE80211CipherSuiteSelector)
    (n : Nat) (hmic : akm.keyMicLen = some 16) (buf : Bytes) (temp : Nat) (pmkA pmkS : Bytes) (aa spa : Mac)
    (an sn : Arr 32) (m1 m2 m4 : Message Bytes) (m3 : Message Chain) (ht : 24 ≤ temp)
    (hm : ∃ m, (m = m1 ∧ m.frame.key_information.key_mic = false ∨ m = m4) ∧ m.frame.key_data = [] ∧
      ValidData m.header ∧ HeaderConsistent m.header ∧ m.frame.key_mic.length = 16 ∧
      m.frame.key_information.encrypted_key_data = false ∧ m.header.lengthInBytes + 108 ≤ buf.length) :
    letI := realKw
    ∀ o, handshake akm cipher n buf temp pmkA pmkS aa spa an sn m1 m2 m4 m3 ≠ .ok o := by
  letI := realKw
  intro o ho
  obtain ⟨m, hm, hd, hv, hc, h16, henc, hb⟩ := hm
  unfold handshake at ho
  obtain ⟨f1, s1, ho⟩ := Res.bind_eq_ok ho
  obtain ⟨r1, d1, ho⟩ := Res.bind_eq_ok ho
  rcases hm with ⟨rfl, hf⟩ | rfl
  · obtain ⟨mic, hml, rfl⟩ := message_send_empty (m := m.withNonce an) hv h16 henc hd ht hb
      (fun h => by rw [show (m.withNonce an).frame.key_information.key_mic = false from hf] at h; cases h) s1
    exact message_empty_refused hs none none m.header hv hc m.oui { (m.withNonce an).frame with key_mic := mic } temp akm
      (by rw [hmic, hml]) hml henc _ d1
  · obtain ⟨⟨kckS, kekS, tkS⟩, _, ho⟩ := Res.bind_eq_ok ho
    obtain ⟨f2, _, ho⟩ := Res.bind_eq_ok ho
    obtain ⟨sn', _, ho⟩ := Res.bind_eq_ok ho
    obtain ⟨⟨kckA, kekA, tkA⟩, _, ho⟩ := Res.bind_eq_ok ho
    obtain ⟨r2, _, ho⟩ := Res.bind_eq_ok ho
    obtain ⟨f3, _, ho⟩ := Res.bind_eq_ok ho
    obtain ⟨r3, _, ho⟩ := Res.bind_eq_ok ho
    obtain ⟨gtk, _, ho⟩ := Res.bind_eq_ok ho
    obtain ⟨rsn, _, ho⟩ := Res.bind_eq_ok ho
    obtain ⟨f4, s4, ho⟩ := Res.bind_eq_ok ho
    obtain ⟨r4, d4, ho⟩ := Res.bind_eq_ok ho
    obtain ⟨mic, hml, rfl⟩ := message_send_empty hv h16 henc hd ht hb (fun _ => rfl) s4
    exact message_empty_refused hs (some kckA) (some kekA) m.header hv hc m.oui { m.frame with key_mic := mic } temp akm
      (by rw [hmic, hml]) hml henc _ d4

/-! ## Concrete cases -/

/-- A message with this key information and key data. -/
def toyMessage {κ : Type} (info : BitVec 16) (data : κ) : Message κ :=
  ⟨⟨.Data, ⟨1⟩, 0, Arr.zero 6, Arr.zero 6, Arr.zero 6, ⟨0⟩, none, none, none⟩, Arr.zero 3, {
    key_information := ⟨info⟩, key_length := 16, key_replay_counter := 1, key_nonce := Arr.zero 32,
    key_iv := 0, key_rsc := 0, key_mic := List.replicate 16 0, key_data := data }⟩

/-- Another toy HMAC, for which the order of the bytes matters. -/
@[instance_reducible] def mixHmac : HmacSha1 :=
  ⟨fun k m => ⟨List.replicate 20 ((k ++ m).foldl (fun a b => (a ^^^ b) * 5 + 1) 0), by simp⟩⟩

/-- A handshake with a toy HMAC and key wrap: with the same PMK both sides have the same temporal key, and the
supplicant the group key; with another PMK message 2 is refused. -/
example (s : Bool) :
    letI : ScrollRule := ⟨s⟩
    letI : Crc32 := ⟨fun _ => 0⟩
    letI := mixHmac
    letI := toyKw
    let g : GtkKde := ⟨⟨1⟩, List.replicate 16 0x77⟩
    let run := fun pmkA pmkS => handshake .Psk .Ccmp128 48 (List.replicate 300 7) 100 pmkA pmkS (Arr.zero 6)
      ⟨[1, 2, 3, 4, 5, 6], rfl⟩ ⟨List.replicate 32 1, by decide⟩ ⟨List.replicate 32 2, by decide⟩
      (toyMessage 0x008a [0xdd, 0]) (toyMessage 0x010a [1, 2, 3]) (toyMessage 0x030a [0])
      (toyMessage 0x13ca (.link (.typed (rsnElem .WPA2_PERSONAL)) (.last (.typed (gtkElem g)))))
    (run [5] [5]).map (fun o => (o.tkA == o.tkS, o.tkA.length, o.gtk, o.received.length)) =
      .ok (true, 16, some g, 4) ∧
    (run [5] [6]).map (fun o => o.gtk) = .err EapolSerdeError.InvalidMic.code := by
  cases s <;> decide +kernel

/-- Messages meeting the hypotheses of the theorems. -/
example (s : Bool) :
    letI : ScrollRule := ⟨s⟩
    (toyMessage 0x008a ([0xdd, 0] : Bytes)).Plain (List.replicate 800 7) 700 ∧
    (toyMessage 0x008a ([0xdd, 0] : Bytes)).frame.key_information.key_mic = false ∧
    (toyMessage 0x010a ([1, 2, 3] : Bytes)).Plain (List.replicate 800 7) 700 ∧
    (toyMessage 0x010a ([1, 2, 3] : Bytes)).frame.key_information.key_mic = true ∧
    (toyMessage 0x030a ([0] : Bytes)).Plain (List.replicate 800 7) 700 ∧
    (toyMessage 0x13ca ()).frame.key_information.encrypted_key_data = true := by
  letI : ScrollRule := ⟨s⟩
  have hs := slack_le
  have hv : ValidData (toyMessage 0 ()).header := ⟨by decide, DataFrameSubtype.canonical_fromBits 0⟩
  have hc : HeaderConsistent (toyMessage 0 ()).header := ⟨by decide, by decide, by decide⟩
  have hp : payloadSubtype (toyMessage 0 ()).header.subtype := by decide
  have hl : (toyMessage 0 ()).header.lengthInBytes = 24 := by decide
  refine ⟨⟨hv, hc, hp, rfl, rfl, ?_, by decide, by decide, ?_⟩, rfl, ⟨hv, hc, hp, rfl, rfl, ?_, by decide, by decide, ?_⟩,
    rfl, ⟨hv, hc, hp, rfl, rfl, ?_, by decide, by decide, ?_⟩, rfl⟩
  · exact Nat.le_trans hs (by decide)
  · rw [List.length_replicate]; decide
  · exact Nat.le_trans hs (by decide)
  · rw [List.length_replicate]; decide
  · exact Nat.le_trans hs (by decide)
  · rw [List.length_replicate]; decide

end Verif
