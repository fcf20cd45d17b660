import Verif.Props.C55
import Verif.Props.C65
import Verif.Props.C72
/-!
# C89: changed security parameters are noticed

Beacons are not protected, so anyone can announce weaker security parameters in the name of an access point.  Therefore
the third message of the four-way handshake, which is protected, repeats the RSN element of the beacon, and the
supplicant ends the association if the two are not the same (12.7.6.4 of the standard, "bit-wise identical").  The
authenticator does the same with the RSN element of the association request and that of the second message.
-/
namespace Verif

namespace Spec

variable [ScrollRule] [Crc32] [HmacSha1] [AesKw]

/-- The RSN element in a received beacon. -/
def rsnOfBeacon (fcs : Bool) (frame : Bytes) : Res (Option RsnElement.Parsed) := do
  let r ← matchFrames frame (if fcs then some true else none)
    [armOf MgmtKind.Beacon.frame (readMgmtFrame readBeaconLike) fun r => r.2.elements]
  getFirstElement r.2 rsnKind

/-- The RSN elements of a beacon and of a key frame are compared; both have to be there. -/
def sameRsn (fcs : Bool) (beacon : Bytes) (r : EapolKeyFrame Bytes) : Res Bool := do
  let a ← rsnOfBeacon fcs beacon
  let b ← getFirstElement r.key_data rsnKind
  match a, b with
  | some q, some q' => RsnElement.parsedEqParsed q q'
  | _, _ => pure false

/-- Whether the supplicant goes on: the third message is accepted, has a MIC, and repeats the RSN element of the
beacon. -/
def goesOn (akm : IEEE80211AkmType) (kck kek : Arr 16) (temp : Nat) (fcs : Bool) (beacon bytes : Bytes) : Res Bool := do
  let r ← deserializeEapolDataFrame (some kck) (some kek) bytes temp akm false
  if r.key_information.key_mic then sameRsn fcs beacon r else pure false

omit [Crc32] [HmacSha1] [AesKw] in
/-- An RSN element of an access point that the crate can carry: no PMKIDs, a prefix of the fields, and so on. -/
structure Advertised (e : RsnElement.OfLists) : Prop where
  prefixed : RsnWf e
  small : RsnSmall e
  canonical : RsnCanonical e
  ending : RsnEndOk e
  noPmkid : ∀ l, e.pmkid_list = some l → l = []
  length : (rsnWire 1 e).length ≤ 255

/-- A third message: MIC, encrypted, the RSN element and a group key. -/
structure Message.Third (m : Message Chain) (e : RsnElement.OfLists) (g : GtkKde) (buf : Bytes) (temp : Nat) : Prop where
  valid : ValidData m.header
  consistent : HeaderConsistent m.header
  mic : m.frame.key_mic = List.replicate 16 0
  flag : m.frame.key_information.key_mic = true
  encrypted : m.frame.key_information.encrypted_key_data = true
  data : m.frame.key_data = .link (.typed (rsnElem e)) (.last (.typed (gtkElem g)))
  length : g.gtk.length ≤ 249
  temp : 600 ≤ temp
  buffer : m.header.lengthInBytes + 700 ≤ buf.length

end Spec

open Spec

variable [ScrollRule] [Crc32] [HmacSha1]

/-- The third message is sent, and the supplicant finds the RSN element in it. -/
private theorem third_arrives (akm : IEEE80211AkmType) (ha : akm.keyMicLen = some 16) (kck kek : Arr 16) (buf : Bytes)
    (temp : Nat) (m : Message Chain) (e : RsnElement.OfLists) (he : Advertised e) (g : GtkKde) (hm : m.Third e g buf temp) :
    letI := realKw
    ∃ bytes r q, sendFrame (some kck) (some kek) m.ofChain buf temp = .ok bytes ∧
      deserializeEapolDataFrame (some kck) (some kek) bytes temp akm false = .ok r ∧
      r.key_information.key_mic = true ∧ getFirstElement r.key_data rsnKind = .ok (some q) ∧ RsnSame q e := by
  letI := realKw
  have hsl := slack_le
  obtain ⟨q, htr, hsame⟩ := c54_rsn_partial e he.prefixed he.small he.canonical he.ending he.noPmkid he.length
  obtain ⟨x, hx⟩ := htr.item
  obtain ⟨y, hy⟩ := gtk_item g hm.length
  have hle := he.length
  have hgl := hm.length
  have hch : ChainOf m.frame.key_data [⟨ElementName.rsn.number, rsnWire 1 e⟩,
      ⟨221, [0x00, 0x0f, 0xac, 1] ++ (toLE g.gtk_info.bits ++ g.gtk)⟩] y := by
    rw [hm.data]; exact .link hx (.last hy)
  have hlast : ∀ r, [⟨ElementName.rsn.number, rsnWire 1 e⟩,
      (⟨221, [0x00, 0x0f, 0xac, 1] ++ (toLE g.gtk_info.bits ++ g.gtk)⟩ : RawElement)].getLast? = some r →
      slack ≤ r.slice.length := by
    intro r hr
    simp only [List.getLast?_cons_cons, List.getLast?_singleton, Option.some.injEq] at hr
    subst hr
    simp; omega
  have hlen : ([⟨ElementName.rsn.number, rsnWire 1 e⟩,
      (⟨221, [0x00, 0x0f, 0xac, 1] ++ (toLE g.gtk_info.bits ++ g.gtk)⟩ : RawElement)].flatMap tlv).length ≤ 514 := by
    simp [tlv]; omega
  have ht := hm.temp
  have hb := hm.buffer
  obtain ⟨out, mic, kd, hser, -, -, -, data, hdes, hlook⟩ := c63_protected_partial kck kek akm ha m.header hm.valid
    hm.consistent m.oui m.frame hm.mic hm.encrypted _ y hch hlast buf temp (by omega) (by omega) (by omega)
  refine ⟨out, { m.frame with key_mic := mic, key_data := data }, q, ?_, ?_, hm.flag, ?_, hsame⟩
  · show (serializeEapolDataFrame _ _ _ _ _ >>= _) = _
    unfold Message.ofChain
    rw [hser]
    simp
  · have := hdes (Arr.zero 4) false
    simpa using this
  · rw [hlook rsnKind ((c63_not_padding _).2 ⟨by simp [rsnKind], by simp [rsnKind], by simp [rsnKind]⟩)
      readRsn_safe.ne_panic]
    exact htr.found _ [] _ (elementsOf_flatMap _ hch.len_le hlast) (by simp)

omit [Crc32] [HmacSha1] in
private theorem compared (q q' : RsnElement.Parsed) (e : RsnElement.OfLists) (h : RsnSame q' e) :
    (RsnElement.parsedEqParsed q q' = .ok true ↔ RsnSame q e) ∧
    (RsnElement.parsedEqParsed q q' = .ok false ↔ ¬ RsnSame q e) := by
  obtain ⟨h1, h2, h3, -⟩ := c55_containers
  have ht : RsnElement.parsedEqParsed q q' = .ok true ∨ RsnElement.parsedEqParsed q q' = .ok false :=
    (c55_rsn h1 h2 h3 h1 h2 h3 q q').1
  have hk : RsnElement.parsedEqParsed q q' = .ok true ↔ RsnSame q e := by
    rw [c55_rsn_parsed_parsed]
    constructor
    · rintro ⟨v, hv, hv'⟩
      rw [RsnHolds.unique ((rsnHolds_parsed _ _).2 h) ((rsnHolds_parsed _ _).2 hv')]
      exact hv
    · exact fun hq => ⟨e, hq, h⟩
  refine ⟨hk, ?_⟩
  rw [← hk]
  rcases ht with ht | ht <;> simp [ht]

/-- Whatever beacon a supplicant has acted on: when the third message of the access point arrives, it goes on if the RSN
element it took from the beacon has the fields and lists that the access point sent, and only then; otherwise it notices
the difference. -/
theorem c89_changed_noticed_partial (akm : IEEE80211AkmType) (ha : akm.keyMicLen = some 16) (kck kek : Arr 16) (buf : Bytes)
    (temp : Nat) (m : Message Chain) (e : RsnElement.OfLists) (he : Advertised e) (g : GtkKde) (hm : m.Third e g buf temp)
    (fcs : Bool) (beacon : Bytes) (q : RsnElement.Parsed) (hq : rsnOfBeacon fcs beacon = .ok (some q)) :
    letI := realKw
    ∃ bytes, sendFrame (some kck) (some kek) m.ofChain buf temp = .ok bytes ∧
      (goesOn akm kck kek temp fcs beacon bytes = .ok true ↔ RsnSame q e) ∧
      (goesOn akm kck kek temp fcs beacon bytes = .ok false ↔ ¬ RsnSame q e) := by
  letI := realKw
  obtain ⟨bytes, r, q', h1, h2, h3, h4, h5⟩ := third_arrives akm ha kck kek buf temp m e he g hm
  have : goesOn akm kck kek temp fcs beacon bytes = RsnElement.parsedEqParsed q q' := by
    simp only [goesOn, h2, Res.ok_bind, h3, if_true, sameRsn, hq, h4]
  refine ⟨bytes, h1, ?_⟩
  rw [this]
  exact compared q q' e h5

/-- The beacon of the access point itself, with any other elements: the supplicant goes on. -/
theorem c89_unchanged_partial (akm : IEEE80211AkmType) (ha : akm.keyMicLen = some 16) (kck kek : Arr 16) (buf : Bytes)
    (temp : Nat) (m : Message Chain) (e : RsnElement.OfLists) (he : Advertised e) (g : GtkKde) (hm : m.Third e g buf temp)
    (fcs : Bool) (h : ManagementFrameHeader) (hc : HtConsistent h) (body : BeaconLikeBody Obj) (c : Chain)
    (pre post : List RawElement) (x : Nat) (hw : body.elements.write = c.write)
    (hch : ChainOf c (pre ++ ⟨48, rsnWire 1 e⟩ :: post) x) (hpre : ∀ r ∈ pre, r.tlv_type ≠ 48)
    (hlast : ∀ r, (pre ++ ⟨48, rsnWire 1 e⟩ :: post).getLast? = some r → slack ≤ r.slice.length) :
    letI := realKw
    ∃ size, ∀ buf' : Bytes, size ≤ buf'.length → ∃ out n bytes,
      writeMgmtFrame .Beacon h (writeBeaconLike body) fcs buf' = .ok (out, n) ∧
      sendFrame (some kck) (some kek) m.ofChain buf temp = .ok bytes ∧
      goesOn akm kck kek temp fcs (out.take n) bytes = .ok true := by
  letI := realKw
  obtain ⟨q, htr, hsame⟩ := c54_rsn_partial e he.prefixed he.small he.canonical he.ending he.noPmkid he.length
  obtain ⟨size, hz⟩ := c65_bodies_partial.2.2.2.2.1 h hc body c _ x hw hch hlast trivial fcs Bytes
    (fun r => r.2.elements) [] [] (by simp)
  refine ⟨size, fun buf' hb' => ?_⟩
  obtain ⟨out, n, els, h1, h2, h3⟩ := hz buf' hb'
  have hq : rsnOfBeacon fcs (out.take n) = .ok (some q) := by
    have h2 : matchFrames (out.take n) (if fcs then some true else none)
      [armOf MgmtKind.Beacon.frame (readMgmtFrame readBeaconLike) fun r => r.2.elements] = .ok (0, els) := h2
    simp only [rsnOfBeacon, h2, Res.ok_bind]
    exact htr.found _ pre post h3 hpre
  obtain ⟨bytes, h4, h5, -⟩ := c89_changed_noticed_partial akm ha kck kek buf temp m e he g hm fcs _ q hq
  exact ⟨out, n, bytes, h1, h4, h5.2 hsame⟩

/-- What someone can change in the beacon without the supplicant noticing, if the access point has no PMKID list in its
element: some bytes at the end of the RSN element that the supplicant has not looked at. -/
theorem c89_bytes_partial (akm : IEEE80211AkmType) (ha : akm.keyMicLen = some 16) (kck kek : Arr 16) (buf : Bytes)
    (temp : Nat) (m : Message Chain) (e : RsnElement.OfLists) (he : Advertised e) (hn : e.pmkid_list = none) (g : GtkKde)
    (hm : m.Third e g buf temp) (fcs : Bool) (beacon bytes : Bytes) :
    letI := realKw
    sendFrame (some kck) (some kek) m.ofChain buf temp = .ok bytes →
    goesOn akm kck kek temp fcs beacon bytes = .ok true →
    ∃ i els raws p rest n q, matchFrames beacon (if fcs then some true else none)
        [armOf MgmtKind.Beacon.frame (readMgmtFrame readBeaconLike) fun r => r.2.elements] = .ok (i, els) ∧
      ElementsOf els raws ∧ ⟨48, p⟩ ∈ raws ∧ readRsn p = .ok (q, n) ∧ RsnSame q e ∧ p = rsnWire 1 e ++ rest := by
  letI := realKw
  intro hs hg
  obtain ⟨bytes', r, q', h1, h2, h3, h4, h5⟩ := third_arrives akm ha kck kek buf temp m e he g hm
  rw [hs] at h1
  cases h1
  simp only [goesOn, h2, Res.ok_bind, h3, if_true, sameRsn] at hg
  obtain ⟨a, ha', hg⟩ := Res.bind_eq_ok hg
  simp only [h4, Res.ok_bind] at hg
  cases a with
  | none => simp at hg
  | some q =>
    have hsame := (compared q q' e h5).1.1 hg
    obtain ⟨⟨i, els⟩, hmf, hfirst⟩ := Res.bind_eq_ok ha'
    obtain ⟨raws, hel⟩ := elementsOf_exists els
    obtain ⟨pre, post, p, hraws, hp, -⟩ := (c07_first_some hel rsnKind (by simp [rsnKind]) readRsn_safe.ne_panic q).1 hfirst
    simp only [parsed, rsnKind] at hp
    split at hp
    · cases hp
    split at hp
    · rename_i v n hr
      cases hp
      obtain ⟨rest, hrest⟩ := c17_parsed_from_partial p q n hr e hsame (by
        intro b hb
        have := hsame.2.2.2.2.1
        rw [hb, hn] at this
        cases this)
      rw [c17_standard_partial e he.noPmkid] at hrest
      exact ⟨i, els, raws, p, rest, n, q, hmf, hel, by rw [hraws]; simp [rawOf, rsnKind], hr, hsame, hrest⟩
    · cases hp

/-- Whatever bytes are received, if the supplicant goes on, then they carry the right MIC, and both the beacon and the key
data have an RSN element, with the same fields and lists. -/
theorem c89_authentic [AesKw] (akm : IEEE80211AkmType) (ha : akm.keyMicLen = some 16) (kck kek : Arr 16) (temp : Nat)
    (fcs : Bool) (beacon bytes : Bytes) (h : goesOn akm kck kek temp fcs beacon bytes = .ok true) :
    ∃ hd n r q q' e, readDataHeader bytes = .ok (hd, n) ∧ MicMatches kck bytes (hd.lengthInBytes + 8) 16 ∧
      deserializeEapolDataFrame (some kck) (some kek) bytes temp akm false = .ok r ∧
      rsnOfBeacon fcs beacon = .ok (some q) ∧ getFirstElement r.key_data rsnKind = .ok (some q') ∧
      RsnSame q e ∧ RsnSame q' e := by
  unfold goesOn at h
  obtain ⟨r, hr, h⟩ := Res.bind_eq_ok h
  split at h
  · rename_i hmic
    unfold sameRsn at h
    obtain ⟨a, ha', h⟩ := Res.bind_eq_ok h
    obtain ⟨b, hb', h⟩ := Res.bind_eq_ok h
    split at h
    · obtain ⟨e, h1, h2⟩ := (c55_rsn_parsed_parsed _ _).1 h
      obtain ⟨c, m, hd, n, hck, hmm, hh, _, _, hmm'⟩ := c40_accepted _ _ bytes temp akm false r hr hmic
      cases hck
      rw [ha] at hmm
      cases hmm
      exact ⟨hd, n, r, _, _, e, by simpa [withoutFcs] using hh, by simpa [withoutFcs] using hmm', hr, ha', hb', h1, h2⟩
    · cases h
  · cases h

/-- Violation: the MIC is only looked at if the received frame asks for it.  For every RSN element there is a frame that
anyone can make up, without MIC and not encrypted, which is accepted whatever the keys, and in which a supplicant finds
the element again that a forged beacon announced.  The supplicant has to look at the MIC flag itself, as `goesOn` does. -/
theorem c89_forged_wrong [AesKw] (akm : IEEE80211AkmType) (ha : akm.keyMicLen = some 16) (e : RsnElement.OfLists)
    (he : Advertised e) (counter : BitVec 64) :
    ∃ bytes : Bytes, ∀ (kck kek : Option (Arr 16)) (temp : Nat),
      ∃ r, deserializeEapolDataFrame kck kek bytes temp akm false = .ok r ∧ r.key_replay_counter = counter ∧
        ∀ fcs beacon q, rsnOfBeacon fcs beacon = .ok (some q) → RsnSame q e → sameRsn fcs beacon r = .ok true := by
  have hsl := slack_le
  obtain ⟨q', htr, hsame⟩ := c54_rsn_partial e he.prefixed he.small he.canonical he.ending he.noPmkid he.length
  have hle := he.length
  have h2 : 2 ≤ (rsnWire 1 e).length := by
    unfold rsnWire; simp
  let raws : List RawElement := [⟨ElementName.rsn.number, rsnWire 1 e⟩]
  have hlen : (raws.flatMap tlv).length = (rsnWire 1 e).length + 2 := by
    simp [raws, tlv]
  let f : EapolKeyFrame Bytes := {
    key_information := ⟨0x0082⟩, key_length := 16, key_replay_counter := counter, key_nonce := Arr.zero 32,
    key_iv := 0, key_rsc := 0, key_mic := List.replicate 16 0, key_data := raws.flatMap tlv }
  let h : DataFrameHeader := ⟨.Data, ⟨2⟩, 0, Arr.zero 6, Arr.zero 6, Arr.zero 6, ⟨0⟩, none, none, none⟩
  have hf1 : f.key_information.key_mic = false := show (⟨0x0082⟩ : KeyInformation).key_mic = false by decide
  have hf2 : f.key_information.encrypted_key_data = false :=
    show (⟨0x0082⟩ : KeyInformation).encrypted_key_data = false by decide
  have hfound : getFirstElement (raws.flatMap tlv) rsnKind = .ok (some q') :=
    htr.found _ [] [] (elementsOf_flatMap _ (by simp [raws]; exact hle) (by simp [raws]; omega)) (by simp)
  refine ⟨eapolPrefix h (Arr.zero 3) 0x888e ++ eapolWire 2 f (Arr.zero 8).val f.key_data, fun kck kek temp => ⟨f, ?_, rfl,
    fun fcs beacon q hq hqe => ?_⟩⟩
  · have := c39_deserialise kck kek h ⟨by decide, DataFrameSubtype.canonical_fromBits 0⟩ ⟨by decide, by decide, by decide⟩
      (Arr.zero 3) 2 f (Arr.zero 8) f.key_data temp akm (by rw [ha]; rfl)
      (by show 79 + 16 + (raws.flatMap tlv).length < _; omega)
      (by show slack ≤ (raws.flatMap tlv).length; omega) (fun hm => by rw [hf1] at hm; cases hm)
      (by rw [hf2]; rfl)
    simpa [deserializeEapolDataFrame] using this
  · have : sameRsn fcs beacon f = RsnElement.parsedEqParsed q q' := by
      simp only [sameRsn, hq, Res.ok_bind, f, hfound]
    rw [this]
    exact (compared q q' e hsame).1.2 hqe

/-! ## Not bit by bit -/

omit [Crc32] [HmacSha1] in
/-- Violation: the comparison is not the one of the standard, which has the elements bit-wise identical.  Whatever
follows the last field of a complete element is ignored: with any bytes added it still compares equal. -/
theorem c89_added_wrong (e : RsnElement.OfLists) (he : Advertised e)
    (hgm : e.group_management_cipher_suite.isSome = true) (extra : Bytes) :
    ∃ q q' n, readRsn (rsnWire 1 e) = .ok (q, n) ∧ readRsn (rsnWire 1 e ++ extra) = .ok (q', n) ∧
      RsnElement.parsedEqParsed q q' = .ok true := by
  obtain ⟨q, hq, h⟩ := c17_read e he.prefixed he.small he.canonical he.ending [] (.inl rfl)
  obtain ⟨q', hq', h'⟩ := c17_read e he.prefixed he.small he.canonical he.ending extra (.inr hgm)
  rw [c17_standard_partial e he.noPmkid] at hq hq'
  rw [List.append_nil] at hq
  exact ⟨q, q', _, hq, hq', (compared q q' e h').1.2 h⟩

omit [Crc32] [HmacSha1] in
/-- Violation: an authenticator compares the RSN element of the association request with that of the second message in the
same way.  If there is a PMKID in it, as the standard has it, three quarters of the PMKID can be changed without being
noticed: all but the octets that the crate takes for the group management cipher suite.  That cipher suite itself can be
changed too, or left out. -/
theorem c89_pmkid_wrong (g : IEEE80211CipherSuiteSelector) (p : List IEEE80211CipherSuiteSelector)
    (a : List IEEE80211AkmType) (c : RsnCapabilities) (hp : p.length < 16384) (ha : a.length < 16384) (hg : g.Canonical)
    (hpc : ∀ c ∈ p, c.Canonical) (hac : ∀ c ∈ a, c.Canonical) (pm pm' : Arr 16)
    (gm gm' : Option IEEE80211CipherSuiteSelector) (hmid : (pm.val.drop 4).take 4 = (pm'.val.drop 4).take 4) :
    ∃ q q' n, readRsn (rsnWire 1 ⟨some g, some p, some a, some c, some [pm], gm⟩) = .ok (q, n) ∧
      readRsn (rsnWire 1 ⟨some g, some p, some a, some c, some [pm'], gm'⟩) = .ok (q', n) ∧
      RsnElement.parsedEqParsed q q' = .ok true := by
  obtain ⟨q, k, hq, hs, hc, hk⟩ := c17_pmkid_shifted g p a c [pm] gm (by simp) hp ha (by simp) hg hpc hac
  obtain ⟨q', k', hq', hs', hc', hk'⟩ := c17_pmkid_shifted g p a c [pm'] gm' (by simp) hp ha (by simp) hg hpc hac
  refine ⟨q, q', _, hq, hq', ?_⟩
  have hv : k.cipherSuiteSelector = k'.cipherSuiteSelector := by
    simp only [List.flatMap_cons, List.flatMap_nil, List.append_nil, List.length_singleton, Nat.mul_one] at hk hk'
    have := congrArg (fromLE 32) (hk.trans (hmid.trans hk'.symm))
    rwa [fromLE_toLE rfl, fromLE_toLE rfl] at this
  have hkk : k = k' := by
    rw [cipher_sel_eq, cipher_sel_eq] at hv
    rw [← IEEE80211CipherSuiteSelector.fromBits_intoBits k hc, hv, IEEE80211CipherSuiteSelector.fromBits_intoBits k' hc']
  subst hkk
  have hs : RsnSame q ⟨some g, some p, some a, some c, some [], some k⟩ := by simpa using hs
  have hs' : RsnSame q' ⟨some g, some p, some a, some c, some [], some k⟩ := by simpa using hs'
  exact (compared q q' _ hs').1.2 hs

/-! ## Concrete cases -/

namespace Spec

/-- CCMP with a pre-shared key and management frame protection. -/
def announcedRsn : RsnElement.OfLists := ⟨some .Ccmp128, some [.Ccmp128], some [.Psk], some ⟨0x80⟩, none, none⟩

/-- The same with the group cipher suite TKIP and no management frame protection. -/
def weakenedRsn : RsnElement.OfLists := ⟨some .Tkip, some [.Ccmp128], some [.Psk], some ⟨0⟩, none, none⟩

/-- A beacon with the elements of a chain. -/
def toyBeacon [ScrollRule] [Crc32] (c : Chain) : Res Bytes := do
  let h : ManagementFrameHeader := ⟨⟨0⟩, 0, Arr.zero 6, Arr.zero 6, Arr.zero 6, ⟨0⟩, none⟩
  let body : BeaconLikeBody Obj := ⟨5, 100, ⟨1⟩, ⟨c.write, c.measure⟩⟩
  let r ← writeMgmtFrame .Beacon h (writeBeaconLike body) false (List.replicate 100 0)
  pure (r.1.take r.2)

end Spec

omit [ScrollRule] [Crc32] [HmacSha1] in
/-- The access point announces and repeats the same element, with a toy HMAC and key wrap: the supplicant goes on.  With a
beacon in which the element was weakened, or without one, it does not; with another KCK the third message is refused. -/
example (s : Bool) :
    letI : ScrollRule := ⟨s⟩
    letI : Crc32 := ⟨fun _ => 0⟩
    letI := mixHmac
    letI := toyKw
    let g : GtkKde := ⟨⟨1⟩, List.replicate 16 0x77⟩
    let k : Arr 16 := Arr.zero 16
    let k' : Arr 16 := ⟨List.replicate 16 1, by decide⟩
    (do
      let b ← toyBeacon (.link (.typed (rsnElem announcedRsn)) (.last (.typed (gtkElem g))))
      let w ← toyBeacon (.link (.typed (rsnElem weakenedRsn)) (.last (.typed (gtkElem g))))
      let n ← toyBeacon (.last (.typed (gtkElem g)))
      let m ← sendFrame (some k) (some k)
        (toyMessage 0x13ca (Chain.link (.typed (rsnElem announcedRsn)) (.last (.typed (gtkElem g))))).ofChain
        (List.replicate 300 7) 100
      pure [goesOn .Psk k k 100 false b m, goesOn .Psk k k 100 false w m, goesOn .Psk k k 100 false n m,
        goesOn .Psk k' k 100 false b m] : Res _) = .ok [.ok true, .ok false, .ok false, .err (.other 6)] := by
  cases s <;> decide +kernel

omit [Crc32] [HmacSha1] in
/-- An element meeting the hypotheses. -/
example : Advertised announcedRsn := by
  refine ⟨?_, ?_, ?_, ?_, ?_, ?_⟩ <;> simp [announcedRsn, RsnWf, RsnSmall, RsnCanonical, RsnEndOk, rsnWire, optField,
    countedList, IEEE80211CipherSuiteSelector.Canonical, IEEE80211AkmType.Canonical]

omit [Crc32] [HmacSha1] in
/-- A message meeting the hypotheses. -/
example : (toyMessage 0x13ca (Chain.link (.typed (rsnElem announcedRsn)) (.last (.typed (gtkElem
    ⟨⟨1⟩, List.replicate 16 0x77⟩))))).Third announcedRsn ⟨⟨1⟩, List.replicate 16 0x77⟩ (List.replicate 800 7) 600 := by
  have hv : ValidData (toyMessage 0 ()).header := ⟨by decide, DataFrameSubtype.canonical_fromBits 0⟩
  have hc : HeaderConsistent (toyMessage 0 ()).header := ⟨by decide, by decide, by decide⟩
  have hl : (toyMessage 0 ()).header.lengthInBytes = 24 := by decide
  refine ⟨hv, hc, rfl, show (⟨0x13ca⟩ : KeyInformation).key_mic = true by decide,
    show (⟨0x13ca⟩ : KeyInformation).encrypted_key_data = true by decide, rfl, by decide, by decide, ?_⟩
  rw [List.length_replicate]
  have hl : (toyMessage 0x13ca (Chain.link (.typed (rsnElem announcedRsn)) (.last (.typed (gtkElem
    ⟨⟨1⟩, List.replicate 16 0x77⟩))))).header.lengthInBytes = 24 := hl
  omega

end Verif
