import Verif.Props.C107
import Verif.Props.C18
/-!
# C108: both sides agree on the security of a link

An access point says in the RSN element of its beacons which pairwise cipher suites and which ways of key management it takes,
and whether it protects management frames (9.4.2.24).  A station chooses the first of its own suites that the access point
takes, and sends its choice in the RSN element of the association request; the access point accepts what it takes.  Management
frames are protected if both are capable of it, and there is no link if one requires it and the other is not capable (Table
12-5).  The two programs are not in the crate; they are written here with the functions of the crate.
-/
namespace Verif

namespace Spec

/-- What a station or an access point takes, the best first. -/
structure Security where
  ciphers : List IEEE80211CipherSuiteSelector
  akms : List IEEE80211AkmType
  mfp : OptionalFeatureConfig
  deriving DecidableEq

/-- What is agreed. -/
structure SecLink where
  group : IEEE80211CipherSuiteSelector
  pairwise : IEEE80211CipherSuiteSelector
  akm : IEEE80211AkmType
  protect : Bool
  deriving DecidableEq

/-- Table 12-5: are management frames protected? -/
def mfpUsed : OptionalFeatureConfig → OptionalFeatureConfig → Option Bool
  | .Disabled, .Disabled => some false
  | .Disabled, .Capable => some false
  | .Capable, .Disabled => some false
  | .Capable, .Capable => some true
  | .Capable, .Required => some true
  | .Required, .Capable => some true
  | .Required, .Required => some true
  | _, _ => none

/-- The first of a list that is in another. -/
def FirstIn {α : Type} (own other : List α) (x : α) : Prop :=
  ∃ pre post, own = pre ++ x :: post ∧ x ∈ other ∧ ∀ y ∈ pre, y ∉ other

/-- The link that station and access point should have. -/
def AgreedLink (sta ap : Security) (group : IEEE80211CipherSuiteSelector) (l : SecLink) : Prop :=
  l.group = group ∧ FirstIn sta.ciphers ap.ciphers l.pairwise ∧ FirstIn sta.akms ap.akms l.akm ∧
    mfpUsed sta.mfp ap.mfp = some l.protect

/-! ## Station and access point, with the functions of the crate -/

/-- Whether management frames are protected, with the functions of the crate. -/
def settle (a b : OptionalFeatureConfig) : Option Bool :=
  if a == .Invalid || b == .Invalid then none
  else if (a.isRequired && !b.isCapable) || (b.isRequired && !a.isCapable) then none
  else some (a.isCapable && b.isCapable)

/-- What a received RSN element says. -/
structure Heard where
  group : IEEE80211CipherSuiteSelector
  ciphers : List IEEE80211CipherSuiteSelector
  akms : List IEEE80211AkmType
  mfp : OptionalFeatureConfig

/-- The octets of an RSN element with these suites and capabilities. -/
def Heard.SaidBy (h : Heard) (p : Bytes) : Prop :=
  ∃ (n2 n3 : BitVec 16) (c : RsnCapabilities) (r : Bytes), h.mfp = c.mfpConfig ∧
    n2.toNat = h.ciphers.length ∧ n3.toNat = h.akms.length ∧
    p = [1, 0] ++ (toLE h.group.cipherSuiteSelector ++ ((toLE n2 ++ h.ciphers.flatMap fun c => toLE c.cipherSuiteSelector) ++
      ((toLE n3 ++ h.akms.flatMap fun c => toLE c.cipherSuiteSelector) ++ (toLE c.bits ++ r))))

/-- The decision of the station. -/
def Heard.choose (own : Security) (h : Heard) : Option SecLink := do
  let c ← own.ciphers.find? fun c => h.ciphers.contains c
  let k ← own.akms.find? fun k => h.akms.contains k
  let m ← settle own.mfp h.mfp
  pure ⟨h.group, c, k, m⟩

/-- The decision of the access point: one suite of each kind, which it takes. -/
def Heard.accept (own : Security) (group : IEEE80211CipherSuiteSelector) (h : Heard) : Option SecLink :=
  match h.ciphers, h.akms with
  | [c], [k] => if h.group == group && own.ciphers.contains c && own.akms.contains k then
      (settle own.mfp h.mfp).map fun m => ⟨h.group, c, k, m⟩ else none
  | _, _ => none

/-- The RSN element of an access point. -/
def Security.element (s : Security) (group : IEEE80211CipherSuiteSelector) : RsnElement.OfLists :=
  ⟨some group, some s.ciphers, some s.akms, some (RsnCapabilities.new.withMfpConfig s.mfp), none, none⟩

/-- That of a station with its choice. -/
def Security.answer (s : Security) (l : SecLink) : RsnElement.OfLists :=
  ⟨some l.group, some [l.pairwise], some [l.akm], some (RsnCapabilities.new.withMfpConfig s.mfp), none, none⟩

variable [ScrollRule] [Crc32]

omit [Crc32] in
/-- What is read in the elements of a frame; an element without a field that matters counts as none. -/
def heardIn (els : Bytes) : Res (Option Heard) := do
  match ← getFirstElement els rsnKind with
  | none => pure none
  | some q => match q.group_data_cipher_suite, q.pairwise_cipher_suite_list, q.akm_list, q.rsn_capbilities with
    | some g, some p, some a, some c => do
      let ps ← p.collect readCipherSuite (els.length + 1)
      let ks ← a.collect readAkm (els.length + 1)
      pure (some ⟨g, ps, ks, c.mfpConfig⟩)
    | _, _, _, _ => pure none

/-- The station hears a beacon: who it is from, and the link it chooses. -/
def hearBeacon (own : Security) (fcs : Bool) (frame : Bytes) : Res (Option (Mac × Option SecLink)) :=
  match matchFrames frame (if fcs then some true else none)
    [armOf MgmtKind.Beacon.frame (readMgmtFrame readBeaconLike) fun r => (r.1.bssid, r.2.elements)] with
  | .panic => .panic
  | .err _ => .ok none
  | .ok (_, who, els) => do
    let h ← heardIn els
    pure (some (who, h.bind fun h => h.choose own))

/-- The access point hears a request: who it is from, and the link it accepts. -/
def hearRequest (own : Security) (group : IEEE80211CipherSuiteSelector) (fcs : Bool) (frame : Bytes) :
    Res (Option (Mac × Option SecLink)) :=
  match matchFrames frame (if fcs then some true else none)
    [armOf MgmtKind.AssociationRequest.frame (readMgmtFrame readAssociationRequest)
      fun r => (r.1.transmitter_address, r.2.elements)] with
  | .panic => .panic
  | .err _ => .ok none
  | .ok (_, who, els) => do
    let h ← heardIn els
    pure (some (who, h.bind fun h => h.accept own group))

/-- A beacon with a given item as RSN element. -/
def beaconSaying (a : Rejoin) (fields : BeaconLikeBody Unit) (i : ChainItem) (fcs : Bool) (buf : Bytes) : Res Bytes := do
  let (out, n) ← writeMgmtFrame .Beacon a.header (writeBeaconLike ⟨fields.timestamp, fields.beacon_interval,
    fields.capabilities_info, (chainAround (a.before.map Prod.fst) (a.after.map Prod.fst) i).obj⟩) fcs buf
  pure (out.take n)

end Spec

open Spec

/-! ## Decisions -/

private theorem settle_eq (a b : OptionalFeatureConfig) : settle a b = mfpUsed a b := by
  cases a <;> cases b <;> rfl

private theorem find_first {α : Type} [DecidableEq α] (own other : List α) (x : α) :
    own.find? (fun c => other.contains c) = some x ↔ FirstIn own other x := by
  rw [List.find?_eq_some_iff_append]
  constructor
  · rintro ⟨h1, pre, post, h2, h3⟩
    exact ⟨pre, post, h2, by simpa using h1, fun y hy => by simpa using h3 y hy⟩
  · rintro ⟨pre, post, h1, h2, h3⟩
    exact ⟨by simpa using h2, pre, post, h1, fun y hy => by simpa using h3 y hy⟩

private theorem choose_iff (sta ap : Security) (g : IEEE80211CipherSuiteSelector) (l : SecLink) :
    Heard.choose sta ⟨g, ap.ciphers, ap.akms, ap.mfp⟩ = some l ↔ AgreedLink sta ap g l := by
  simp only [Heard.choose, Option.bind_eq_bind, Option.bind_eq_some_iff, find_first, settle_eq, AgreedLink, pure,
    Option.some.injEq]
  constructor
  · rintro ⟨c, h1, k, h2, m, h3, rfl⟩
    exact ⟨rfl, h1, h2, h3⟩
  · rintro ⟨h0, h1, h2, h3⟩
    exact ⟨_, h1, _, h2, _, h3, by rw [← h0]⟩

private theorem mfp_of (c : RsnCapabilities) (x y : Bool) (h7 : c.bits.getLsbD 7 = x) (h6 : c.bits.getLsbD 6 = y) :
    c.mfpConfig = if x then (if y then .Invalid else .Required) else if y then .Capable else .Disabled := by
  have h : c.mfp_config = (BitVec.ofBool x ++ BitVec.ofBool y) := by
    apply BitVec.eq_of_getLsbD_eq
    intro i hi
    simp only [RsnCapabilities.mfp_config]
    have : i = 0 ∨ i = 1 := by omega
    rcases this with rfl | rfl <;> simp_all [getField] <;> cases x <;> cases y <;> rfl
  rw [RsnCapabilities.mfpConfig, h]
  cases x <;> cases y <;> rfl

private theorem mfpUsed_comm (a b : OptionalFeatureConfig) : mfpUsed a b = mfpUsed b a := by
  cases a <;> cases b <;> rfl

private theorem accept_agreed (sta ap : Security) (g : IEEE80211CipherSuiteSelector) (l : SecLink) (h : AgreedLink sta ap g l) :
    Heard.accept ap g ⟨l.group, [l.pairwise], [l.akm], sta.mfp⟩ = some l := by
  obtain ⟨h0, ⟨_, _, _, h1, _⟩, ⟨_, _, _, h2, _⟩, h3⟩ := h
  simp only [Heard.accept, settle_eq, mfpUsed_comm ap.mfp, h3]
  rw [if_pos (by simp [h0, h1, h2])]
  rfl

variable [ScrollRule]

private theorem heard_of {bytes : Bytes} {raws : List RawElement} (he : ElementsOf bytes raws)
    (g : IEEE80211CipherSuiteSelector) (p : List IEEE80211CipherSuiteSelector) (k : List IEEE80211AkmType)
    (c : RsnCapabilities) (hg : g.Canonical) (hp : ∀ c ∈ p, c.Canonical) (hk : ∀ c ∈ k, c.Canonical)
    (pre post : List RawElement)
    (hr : raws = pre ++ ⟨48, rsnWire 1 ⟨some g, some p, some k, some c, none, none⟩⟩ :: post)
    (hpre : ∀ r ∈ pre, r.tlv_type ≠ 48)
    (hfit : (rsnWire 1 ⟨some g, some p, some k, some c, none, none⟩).length ≤ 255) :
    heardIn bytes = .ok (some ⟨g, p, k, c.mfpConfig⟩) := by
  have hsl := slack_le
  have h2 := c17_measure_partial ⟨some g, some p, some k, some c, none, none⟩ 1 (by simp)
  have h3 : 4 + 4 * p.length + 4 * k.length ≤ measureRsnLists ⟨some g, some p, some k, some c, none, none⟩ := by
    simp [measureRsnLists, RsnElement.measure]; omega
  obtain ⟨q, hq, s1, s2, s3, s4, -⟩ := c17_read ⟨some g, some p, some k, some c, none, none⟩ (by simp [RsnWf])
    ⟨by simp; omega, by simp; omega, by simp⟩
    ⟨by simpa using hg, by simpa using hp, by simpa using hk, by simp⟩ ⟨by simp, by simp, by simp⟩ [] (.inl rfl)
  rw [List.append_nil, c17_standard_partial _ (by simp)] at hq
  have hmem : (⟨48, rsnWire 1 ⟨some g, some p, some k, some c, none, none⟩⟩ : RawElement) ∈ raws := by rw [hr]; simp
  have hlong := mem_long he _ hmem
  simp only at hlong
  have h1 : getFirstElement bytes rsnKind = .ok (some q) := by
    refine (c07_first_some he rsnKind (by simp [rsnKind]) readRsn_safe.ne_panic q).2 ⟨pre, post, _, hr, ?_, ?_⟩
    · simp only [parsed, rsnKind, hq]
      rw [if_neg (by omega)]
    · intro p hp
      exact absurd rfl (hpre _ hp)
  simp only at s1 s2 s3 s4
  obtain ⟨qg, qp, qa, qc, qm, qk⟩ := q
  simp only at s1 s2 s3 s4
  subst s1 s4
  cases qp with
  | none => exact s2.elim
  | some qp =>
    cases qa with
    | none => exact s3.elim
    | some qa =>
      have c1 := collect_of_yields s2 (bytes.length + 1) (by omega)
      have c2 := collect_of_yields s3 (bytes.length + 1) (by omega)
      simp only [heardIn, h1, Res.ok_bind, c1, c2]
      rfl

variable [Crc32]

/-- What an access point says in its beacons is heard by a station. -/
private theorem beacon_core (sta : Security) (a : Rejoin) (ha : a.Fine) (b : BeaconLikeBody Unit) (i : ChainItem)
    (g : IEEE80211CipherSuiteSelector) (p : List IEEE80211CipherSuiteSelector) (k : List IEEE80211AkmType)
    (c : RsnCapabilities) (hg : g.Canonical) (hp : ∀ c ∈ p, c.Canonical) (hk : ∀ c ∈ k, c.Canonical)
    (hfit : (rsnWire 1 ⟨some g, some p, some k, some c, none, none⟩).length ≤ 255) (x : Nat)
    (hi : ItemOf i ⟨48, rsnWire 1 ⟨some g, some p, some k, some c, none, none⟩⟩ x) (fcs : Bool) :
    ∃ size, ∀ buf : Bytes, size ≤ buf.length → ∃ frame, beaconSaying a b i fcs buf = .ok frame ∧
      hearBeacon sta fcs frame = .ok (some (a.header.bssid, Heard.choose sta ⟨g, p, k, c.mfpConfig⟩)) := by
  have hsl := slack_le
  obtain ⟨y, hch⟩ := chainAround_of a.before a.after (fun p hp => (ha.items p hp).1) i _ x hi
  obtain ⟨size, hA⟩ := c65_bodies_partial.2.2.2.2.1 a.header ha.ht
    ⟨b.timestamp, b.beacon_interval, b.capabilities_info,
      (chainAround (a.before.map Prod.fst) (a.after.map Prod.fst) i).obj⟩ _ _ y rfl hch
    (arrives_last a ha _ (by simp [rsnWire]; omega)) trivial fcs (Mac × Bytes) (fun r => (r.1.bssid, r.2.elements))
    [] [] (by simp)
  refine ⟨size, fun buf hbuf => ?_⟩
  obtain ⟨out, m, els, h1, h2, h3⟩ := hA buf hbuf
  refine ⟨out.take m, ?_, ?_⟩
  · simp only [beaconSaying]
    erw [h1]
    rfl
  · have hid := heard_of h3 g p k c hg hp hk _ _ rfl (by
      intro r hr
      obtain ⟨p, hp, rfl⟩ := List.mem_map.1 hr
      exact (ha.items p (by simp [hp])).2) hfit
    simp only [hearBeacon]
    simp only [List.nil_append] at h2
    erw [h2]
    simp only [hid, Res.ok_bind]
    rfl

/-- What a station says in its request is heard by an access point. -/
private theorem request_core (ap : Security) (group : IEEE80211CipherSuiteSelector) (a : Rejoin) (ha : a.Fine) (i : ChainItem)
    (g : IEEE80211CipherSuiteSelector) (p : List IEEE80211CipherSuiteSelector) (k : List IEEE80211AkmType)
    (c : RsnCapabilities) (hg : g.Canonical) (hp : ∀ c ∈ p, c.Canonical) (hk : ∀ c ∈ k, c.Canonical)
    (hfit : (rsnWire 1 ⟨some g, some p, some k, some c, none, none⟩).length ≤ 255) (x : Nat)
    (hi : ItemOf i ⟨48, rsnWire 1 ⟨some g, some p, some k, some c, none, none⟩⟩ x) (fcs : Bool) :
    ∃ size, ∀ buf : Bytes, size ≤ buf.length → ∃ frame, rejoin a i fcs buf = .ok frame ∧
      hearRequest ap group fcs frame =
        .ok (some (a.header.transmitter_address, Heard.accept ap group ⟨g, p, k, c.mfpConfig⟩)) := by
  have hsl := slack_le
  obtain ⟨y, hch⟩ := chainAround_of a.before a.after (fun p hp => (ha.items p hp).1) i _ x hi
  obtain ⟨size, hA⟩ := c65_bodies_partial.1 a.header ha.ht
    ⟨a.capabilities, a.listen, (chainAround (a.before.map Prod.fst) (a.after.map Prod.fst) i).obj⟩ _ _ y rfl hch
    (arrives_last a ha _ (by simp [rsnWire]; omega)) trivial fcs (Mac × Bytes)
    (fun r => (r.1.transmitter_address, r.2.elements)) [] [] (by simp)
  refine ⟨size, fun buf hbuf => ?_⟩
  obtain ⟨out, m, els, h1, h2, h3⟩ := hA buf hbuf
  refine ⟨out.take m, ?_, ?_⟩
  · simp only [rejoin]
    erw [h1]
    rfl
  · have hid := heard_of h3 g p k c hg hp hk _ _ rfl (by
      intro r hr
      obtain ⟨p, hp, rfl⟩ := List.mem_map.1 hr
      exact (ha.items p (by simp [hp])).2) hfit
    simp only [hearRequest]
    simp only [List.nil_append] at h2
    erw [h2]
    simp only [hid, Res.ok_bind]
    rfl

omit [Crc32] in
private theorem typed_item (g : IEEE80211CipherSuiteSelector) (p : List IEEE80211CipherSuiteSelector)
    (k : List IEEE80211AkmType) (c : RsnCapabilities)
    (hfit : (rsnWire 1 ⟨some g, some p, some k, some c, none, none⟩).length ≤ 255) :
    ∃ x, ItemOf (.typed (rsnElem ⟨some g, some p, some k, some c, none, none⟩))
      ⟨48, rsnWire 1 ⟨some g, some p, some k, some c, none, none⟩⟩ x := by
  have hsl := slack_le
  have h2 := c17_measure_partial ⟨some g, some p, some k, some c, none, none⟩ 1 (by simp)
  have h3 : 4 + 4 * p.length + 4 * k.length ≤ measureRsnLists ⟨some g, some p, some k, some c, none, none⟩ := by
    simp [measureRsnLists, RsnElement.measure]; omega
  have hw := c17_write ⟨some g, some p, some k, some c, none, none⟩ (by simp [RsnWf])
    ⟨by simp; omega, by simp; omega, by simp⟩ ⟨by simp, by simp, by simp⟩
  rw [c17_standard_partial _ (by simp)] at hw
  exact ⟨_, ItemOf.typed (rsnElem _) _ _ hw (by omega) h2 hfit⟩

/-! ## The property -/

/-- Station and access point that are written with the crate, neither of which requires protection of management frames: the
station chooses the link that it should, and none if there is none; and the access point accepts that link.  Partial: suites
are as C17 reads them, HT control as in the frame control field, and for who requires protection see `c108_required_lost`. -/
theorem c108_agree_partial (sta ap : Security) (g : IEEE80211CipherSuiteSelector)
    (hs : sta.mfp = .Disabled ∨ sta.mfp = .Capable) (hap : ap.mfp = .Disabled ∨ ap.mfp = .Capable)
    (hg : g.Canonical) (hp : ∀ c ∈ ap.ciphers, c.Canonical) (hk : ∀ c ∈ ap.akms, c.Canonical)
    (hfit : (rsnWire 1 (ap.element g)).length ≤ 255) (a1 a2 : Rejoin) (h1 : a1.Fine) (h2 : a2.Fine) (b : BeaconLikeBody Unit)
    (fcs : Bool) :
    ∃ o : Option SecLink, (∀ l, o = some l ↔ AgreedLink sta ap g l) ∧
      (∃ size, ∀ buf : Bytes, size ≤ buf.length → ∃ frame,
        beaconSaying a1 b (.typed (rsnElem (ap.element g))) fcs buf = .ok frame ∧
        hearBeacon sta fcs frame = .ok (some (a1.header.bssid, o))) ∧
      ∀ l, o = some l → ∃ size, ∀ buf : Bytes, size ≤ buf.length → ∃ frame,
        rejoin a2 (.typed (rsnElem (sta.answer l))) fcs buf = .ok frame ∧
        hearRequest ap g fcs frame = .ok (some (a2.header.transmitter_address, some l)) := by
  have key (m : OptionalFeatureConfig) (hm : m = .Disabled ∨ m = .Capable) :
      (RsnCapabilities.new.withMfpConfig m).mfpConfig = m := by
    rcases hm with rfl | rfl <;> decide
  refine ⟨Heard.choose sta ⟨g, ap.ciphers, ap.akms, ap.mfp⟩, fun l => choose_iff sta ap g l, ?_, ?_⟩
  · obtain ⟨x, hx⟩ := typed_item g ap.ciphers ap.akms (RsnCapabilities.new.withMfpConfig ap.mfp) hfit
    have := beacon_core sta a1 h1 b _ g ap.ciphers ap.akms _ hg hp hk hfit x hx fcs
    rw [key _ hap] at this
    exact this
  · intro l hl
    have hag := (choose_iff sta ap g l).1 hl
    have hfit2 : (rsnWire 1 ⟨some l.group, some [l.pairwise], some [l.akm],
        some (RsnCapabilities.new.withMfpConfig sta.mfp), none, none⟩).length ≤ 255 := by
      simp [rsnWire, countedList, optField]
    obtain ⟨h0, ⟨_, _, _, m1, _⟩, ⟨_, _, _, m2, _⟩, -⟩ := id hag
    obtain ⟨x, hx⟩ := typed_item l.group [l.pairwise] [l.akm] (RsnCapabilities.new.withMfpConfig sta.mfp) hfit2
    have := request_core ap g a2 h2 _ l.group [l.pairwise] [l.akm] _ (h0 ▸ hg) (by simpa using hp _ m1)
      (by simpa using hk _ m2) hfit2 x hx fcs
    rw [key _ hs, accept_agreed sta ap g l hag] at this
    exact this

/-- Violation: an access point that requires protection of management frames, as all WPA3 networks do, is joined by no
station: what the crate writes for "required" it reads as "invalid". -/
theorem c108_required_lost (sta ap : Security) (g : IEEE80211CipherSuiteSelector) (hap : ap.mfp = .Required)
    (hg : g.Canonical) (hp : ∀ c ∈ ap.ciphers, c.Canonical) (hk : ∀ c ∈ ap.akms, c.Canonical)
    (hfit : (rsnWire 1 (ap.element g)).length ≤ 255) (a : Rejoin) (ha : a.Fine) (b : BeaconLikeBody Unit) (fcs : Bool) :
    ∃ size, ∀ buf : Bytes, size ≤ buf.length → ∃ frame,
      beaconSaying a b (.typed (rsnElem (ap.element g))) fcs buf = .ok frame ∧
      hearBeacon sta fcs frame = .ok (some (a.header.bssid, none)) := by
  obtain ⟨x, hx⟩ := typed_item g ap.ciphers ap.akms (RsnCapabilities.new.withMfpConfig ap.mfp) hfit
  have := beacon_core sta a ha b _ g ap.ciphers ap.akms _ hg hp hk hfit x hx fcs
  have hm : (RsnCapabilities.new.withMfpConfig ap.mfp).mfpConfig = .Invalid := by rw [hap]; decide
  have hn : Heard.choose sta ⟨g, ap.ciphers, ap.akms, .Invalid⟩ = none := by
    rw [Option.eq_none_iff_forall_ne_some]
    intro l hl
    have := ((choose_iff sta ⟨ap.ciphers, ap.akms, .Invalid⟩ g l).1 hl).2.2.2
    revert this
    cases sta.mfp <;> exact fun h => by cases h
  rw [hm, hn] at this
  exact this

/-- Violation: a station that requires protection is accepted by no access point. -/
theorem c108_station_lost (sta ap : Security) (g : IEEE80211CipherSuiteSelector) (hs : sta.mfp = .Required)
    (l : SecLink) (hl : AgreedLink sta ap g l) (hg : g.Canonical) (hp : ∀ c ∈ ap.ciphers, c.Canonical)
    (hk : ∀ c ∈ ap.akms, c.Canonical) (a : Rejoin) (ha : a.Fine) (fcs : Bool) :
    ∃ size, ∀ buf : Bytes, size ≤ buf.length → ∃ frame,
      rejoin a (.typed (rsnElem (sta.answer l))) fcs buf = .ok frame ∧
      hearRequest ap g fcs frame = .ok (some (a.header.transmitter_address, none)) := by
  have hfit2 : (rsnWire 1 ⟨some l.group, some [l.pairwise], some [l.akm],
      some (RsnCapabilities.new.withMfpConfig sta.mfp), none, none⟩).length ≤ 255 := by
    simp [rsnWire, countedList, optField]
  obtain ⟨h0, ⟨_, _, _, m1, _⟩, ⟨_, _, _, m2, _⟩, -⟩ := id hl
  obtain ⟨x, hx⟩ := typed_item l.group [l.pairwise] [l.akm] (RsnCapabilities.new.withMfpConfig sta.mfp) hfit2
  have := request_core ap g a ha _ l.group [l.pairwise] [l.akm] _ (h0 ▸ hg) (by simpa using hp _ m1)
    (by simpa using hk _ m2) hfit2 x hx fcs
  have hm : (RsnCapabilities.new.withMfpConfig sta.mfp).mfpConfig = .Invalid := by rw [hs]; decide
  have hn : Heard.accept ap g ⟨l.group, [l.pairwise], [l.akm], .Invalid⟩ = none := by
    have : settle ap.mfp .Invalid = none := by cases ap.mfp <;> rfl
    simp only [Heard.accept, this, Option.map_none, ite_self]
  rw [hm, hn] at this
  exact this

/-- Violation: of an access point that says with the octets of the standard that it is capable of protection (bit 7 of the
capabilities) but does not require it (bit 6), the crate reads that it requires it: a station without protection does not join,
although by Table 12-5 it may. -/
theorem c108_capable_wrong (sta : Security) (hs : sta.mfp = .Disabled) (g : IEEE80211CipherSuiteSelector)
    (p : List IEEE80211CipherSuiteSelector) (k : List IEEE80211AkmType) (c : RsnCapabilities)
    (h7 : c.bits.getLsbD 7 = true) (h6 : c.bits.getLsbD 6 = false)
    (hg : g.Canonical) (hp : ∀ c ∈ p, c.Canonical) (hk : ∀ c ∈ k, c.Canonical)
    (hfit : (rsnWire 1 ⟨some g, some p, some k, some c, none, none⟩).length ≤ 255) (a : Rejoin) (ha : a.Fine)
    (b : BeaconLikeBody Unit) (fcs : Bool) :
    mfpUsed sta.mfp .Capable = some false ∧
    ∃ size, ∀ buf : Bytes, size ≤ buf.length → ∃ frame,
      beaconSaying a b (.raw ⟨48, rsnWire 1 ⟨some g, some p, some k, some c, none, none⟩⟩) fcs buf = .ok frame ∧
      hearBeacon sta fcs frame = .ok (some (a.header.bssid, none)) := by
  refine ⟨by rw [hs]; rfl, ?_⟩
  have := beacon_core sta a ha b _ g p k c hg hp hk hfit _ (.raw ⟨48, _⟩ hfit) fcs
  have hm : c.mfpConfig = .Required := mfp_of c true false h7 h6
  have hn : Heard.choose sta ⟨g, p, k, .Required⟩ = none := by
    rw [Option.eq_none_iff_forall_ne_some]
    intro l hl
    have := ((choose_iff sta ⟨p, k, .Required⟩ g l).1 hl).2.2.2
    rw [hs] at this
    cases this
  rw [hm, hn] at this
  exact this

/-- Violation: and of one that says with these octets that it requires protection, no station chooses a link. -/
theorem c108_octets_lost (sta : Security) (g : IEEE80211CipherSuiteSelector)
    (p : List IEEE80211CipherSuiteSelector) (k : List IEEE80211AkmType) (c : RsnCapabilities)
    (h7 : c.bits.getLsbD 7 = true) (h6 : c.bits.getLsbD 6 = true)
    (hg : g.Canonical) (hp : ∀ c ∈ p, c.Canonical) (hk : ∀ c ∈ k, c.Canonical)
    (hfit : (rsnWire 1 ⟨some g, some p, some k, some c, none, none⟩).length ≤ 255) (a : Rejoin) (ha : a.Fine)
    (b : BeaconLikeBody Unit) (fcs : Bool) :
    ∃ size, ∀ buf : Bytes, size ≤ buf.length → ∃ frame,
      beaconSaying a b (.raw ⟨48, rsnWire 1 ⟨some g, some p, some k, some c, none, none⟩⟩) fcs buf = .ok frame ∧
      hearBeacon sta fcs frame = .ok (some (a.header.bssid, none)) := by
  have := beacon_core sta a ha b _ g p k c hg hp hk hfit _ (.raw ⟨48, _⟩ hfit) fcs
  have hm : c.mfpConfig = .Invalid := mfp_of c true true h7 h6
  have hn : Heard.choose sta ⟨g, p, k, .Invalid⟩ = none := by
    rw [Option.eq_none_iff_forall_ne_some]
    intro l hl
    have := ((choose_iff sta ⟨p, k, .Invalid⟩ g l).1 hl).2.2.2
    revert this
    cases sta.mfp <;> exact fun h => by cases h
  rw [hm, hn] at this
  exact this

/-! ## Anything on the air -/

omit [Crc32] in
private theorem body_shape (inp : Bytes) : ∃ q n, RdAt readRsnBody inp q n ∧
    ∀ g P A c, q.group_data_cipher_suite = some g → q.pairwise_cipher_suite_list = some P → q.akm_list = some A →
      q.rsn_capbilities = some c → ∃ (v : BitVec 32) (n2 : BitVec 16) (b2 : Bytes) (n3 : BitVec 16) (b3 r : Bytes),
        inp = toLE v ++ ((toLE n2 ++ b2) ++ ((toLE n3 ++ b3) ++ (toLE c.bits ++ r))) ∧
        g = .withCipherSuiteSelector v ∧ P = .new b2 ∧ A = .new b3 ∧ b2.length = n2.toNat * 4 ∧
        b3.length = n3.toNat * 4 := by
  rcases greadCipher_any inp with h1 | ⟨g, r1, rfl⟩
  · exact ⟨_, 0, RdAt.bind_pure h1 rfl, by simp [RsnElement.empty]⟩
  have s1 := greadCipher_some g r1
  rcases readRsnList_any r1 with ⟨k, hk, h2⟩ | ⟨n2, b2, r2, rfl, l2, e2⟩
  · exact ⟨_, _, RdAt.bind s1 (RdAt.bind_pure h2 rfl), by simp⟩
  have s2 := readRsnList_some n2 b2 r2 l2 e2
  rcases readRsnList_any r2 with ⟨k, hk, h3⟩ | ⟨n3, b3, r3, rfl, l3, e3⟩
  · exact ⟨_, _, RdAt.bind s1 (RdAt.bind s2 (RdAt.bind_pure h3 rfl)), by simp⟩
  have s3 := readRsnList_some n3 b3 r3 l3 e3
  rcases greadU16_any r3 with h4 | ⟨c, r4, rfl⟩
  · exact ⟨_, _, RdAt.bind s1 (RdAt.bind s2 (RdAt.bind s3 (RdAt.bind_pure h4 rfl))), by simp⟩
  have s4 := greadU16_some c r4
  have key : ∀ (q : RsnElement.Parsed), q.group_data_cipher_suite = some (.withCipherSuiteSelector g) →
      q.pairwise_cipher_suite_list = some (.new b2) → q.akm_list = some (.new b3) → q.rsn_capbilities = some ⟨c⟩ →
      ∀ g' P A c', q.group_data_cipher_suite = some g' → q.pairwise_cipher_suite_list = some P → q.akm_list = some A →
      q.rsn_capbilities = some c' → ∃ (v : BitVec 32) (n2' : BitVec 16) (b2' : Bytes)
        (n3' : BitVec 16) (b3' r : Bytes),
        toLE g ++ ((toLE n2 ++ b2) ++ ((toLE n3 ++ b3) ++ (toLE c ++ r4))) =
          toLE v ++ ((toLE n2' ++ b2') ++ ((toLE n3' ++ b3') ++ (toLE c'.bits ++ r))) ∧
        g' = .withCipherSuiteSelector v ∧ P = .new b2' ∧ A = .new b3' ∧ b2'.length = n2'.toNat * 4 ∧
        b3'.length = n3'.toNat * 4 := by
    intro q q1 q2 q3 q4 g' P A c' p1 p2 p3 p4
    rw [q1] at p1; rw [q2] at p2; rw [q3] at p3; rw [q4] at p4
    simp only [Option.some.injEq] at p1 p2 p3 p4
    subst p1 p2 p3 p4
    exact ⟨g, n2, b2, n3, b3, r4, rfl, rfl, rfl, rfl, l2, l3⟩
  rcases readRsnList_any r4 with ⟨k, hk, h5⟩ | ⟨n5, b5, r5, rfl, l5, e5⟩
  · exact ⟨_, _, RdAt.bind s1 (RdAt.bind s2 (RdAt.bind s3 (RdAt.bind s4 (RdAt.bind_pure h5 rfl)))), key _ rfl rfl rfl rfl⟩
  have s5 := readRsnList_some n5 b5 r5 l5 e5
  rcases greadCipher_any r5 with h6 | ⟨m, r6, rfl⟩
  · exact ⟨_, _, RdAt.bind s1 (RdAt.bind s2 (RdAt.bind s3 (RdAt.bind s4 (RdAt.bind s5 (RdAt.bind_pure h6 rfl))))),
      key _ rfl rfl rfl rfl⟩
  · exact ⟨_, _, RdAt.bind s1 (RdAt.bind s2 (RdAt.bind s3 (RdAt.bind s4 (RdAt.bind s5
      (RdAt.bind_pure (greadCipher_some m r6) rfl))))), key _ rfl rfl rfl rfl⟩

omit [ScrollRule] [Crc32] in
private theorem collect_total {α : Type} (r : Reader α) (f : BitVec 32 → α)
    (hr : ∀ v rest, r (toLE v ++ rest) = .ok (f v, 4)) (he : ∀ b : Bytes, b.length < 4 → ∃ e, r b = .err e) :
    ∀ (k n : Nat) (b : Bytes), b.length < k → b.length = n * 4 →
    ∃ l, (ReadIterator.new b).collect r k = .ok l ∧ ∃ vs : List (BitVec 32), b = vs.flatMap toLE ∧ l = vs.map f := by
  intro k
  induction k with
  | zero => intro n b h; omega
  | succ k ih =>
    intro n b h hn
    by_cases h4 : 4 ≤ b.length
    · obtain ⟨v, rest, rfl⟩ := exists_toLE 32 rfl h4
      have hl : (toLE v).length = 4 := by simp
      obtain ⟨l, hl, vs, h1, h2⟩ := ih (n - 1) rest (by simp at h; omega) (by simp at hn; omega)
      refine ⟨f v :: l, ?_, v :: vs, by rw [List.flatMap_cons, ← h1], by rw [h2]; rfl⟩
      simp only [ReadIterator.new] at hl
      have hd : (toLE v ++ rest).drop 4 = rest := List.drop_left' (by simp)
      simp only [ReadIterator.collect, ReadIterator.next, ReadIterator.new, hr, hd]
      rw [if_pos (by simp)]
      simp only [Res.ok_bind, hl]
      rfl
    · obtain ⟨e, hy⟩ := he b (by omega)
      refine ⟨[], by simp [ReadIterator.collect, ReadIterator.next, ReadIterator.new, hy], [], ?_, rfl⟩
      exact List.eq_nil_of_length_eq_zero (by omega)

omit [Crc32] in
private theorem heard_total {els : Bytes} {raws : List RawElement} (h : ElementsOf els raws) :
    ∃ o, heardIn els = .ok o ∧ ∀ x, o = some x → ∃ r ∈ raws, r.tlv_type = 48 ∧ x.SaidBy r.slice := by
  obtain ⟨o, ho⟩ := (c08_lookup_safe els rsnKind (by simp [rsnKind]) fun q => readRsn_safe.ne_panic q).2.1
  cases o with
  | none => exact ⟨none, by simp only [heardIn, ho, Res.ok_bind]; rfl, by simp⟩
  | some q =>
    obtain ⟨pre, post, p, hr, hp, -⟩ := (c07_first_some h rsnKind (by simp [rsnKind]) readRsn_safe.ne_panic q).1 ho
    have hrd : ∃ n, readRsn p = .ok (q, n) := by
      simp only [parsed, rsnKind] at hp
      split at hp
      · cases hp
      · split at hp
        · rename_i a k hk
          simp only [Option.some.injEq] at hp
          subst hp
          exact ⟨_, hk⟩
        · cases hp
    obtain ⟨n, hn⟩ := hrd
    have hmem : (⟨48, p⟩ : RawElement) ∈ raws := by rw [hr]; exact List.mem_append_right _ List.mem_cons_self
    have hlen := mem_long h _ hmem
    simp only at hlen
    by_cases hv : ∀ rest, p ≠ [1, 0] ++ rest
    · obtain ⟨e, he⟩ := c17_version p hv
      rw [he] at hn; cases hn
    obtain ⟨rest, hv⟩ := Classical.not_forall.1 hv
    obtain rfl := Classical.not_not.1 hv
    obtain ⟨q', n', h1, h2⟩ := body_shape rest
    rw [read_version h1] at hn
    simp only [Res.ok.injEq, Prod.mk.injEq] at hn
    obtain ⟨rfl, -⟩ := hn
    obtain ⟨qg, qp, qa, qc, qm, qk⟩ := q'
    cases qg with
    | none => exact ⟨none, by simp only [heardIn, ho, Res.ok_bind]; rfl, by simp⟩
    | some g =>
    cases qp with
    | none => exact ⟨none, by simp only [heardIn, ho, Res.ok_bind]; rfl, by simp⟩
    | some P =>
    cases qa with
    | none => exact ⟨none, by simp only [heardIn, ho, Res.ok_bind]; rfl, by simp⟩
    | some A =>
    cases qc with
    | none => exact ⟨none, by simp only [heardIn, ho, Res.ok_bind]; rfl, by simp⟩
    | some c =>
      obtain ⟨v, n2, b2, n3, b3, r, rfl, rfl, rfl, rfl, l2, l3⟩ := h2 g P A c rfl rfl rfl rfl
      simp only [List.length_append] at hlen
      obtain ⟨ps, c1, vs, rfl, rfl⟩ := collect_total readCipherSuite _ readCipherSuite_toLE
        (fun b hb => (readCipherSuite_fixed b).2 hb) (els.length + 1) n2.toNat b2 (by omega) l2
      obtain ⟨ks, c2, ws, rfl, rfl⟩ := collect_total readAkm _ readAkm_toLE
        (fun b hb => (readAkm_fixed b).2 hb) (els.length + 1) n3.toNat b3 (by omega) l3
      have hlist (l : List (BitVec 32)) : (l.flatMap toLE).length = l.length * 4 := by
        induction l with
        | nil => rfl
        | cons a l ih => simp only [List.flatMap_cons, List.length_append, toLE_length, ih, List.length_cons]; omega
      rw [hlist] at l2 l3
      refine ⟨_, by simp only [heardIn, ho, Res.ok_bind, c1, c2]; rfl, ?_⟩
      intro x hx
      simp only [Option.some.injEq] at hx
      subst hx
      refine ⟨_, hmem, rfl, n2, n3, c, r, rfl, by simp; omega, by simp; omega, ?_⟩
      simp only [List.flatMap_map, c18_cipher_codes.lossless, c18_akm_codes.lossless]

/-- Neither side panics, but on frames with less than four bytes where a check sequence is expected. -/
theorem c108_panics_iff (own : Security) (g : IEEE80211CipherSuiteSelector) (fcs : Bool) (frame : Bytes) :
    (hearBeacon own fcs frame = .panic ↔ fcs = true ∧ frame.length < 4) ∧
    (hearRequest own g fcs frame = .panic ↔ fcs = true ∧ frame.length < 4) := by
  constructor
  · have hm := (match_mgmt readBeaconLike readBeaconLike_safe (fun r => (r.1.bssid, r.2.elements)) [.Beacon] (by decide) fcs
      frame).1
    simp only [List.map_cons, List.map_nil] at hm
    rw [← hm, hearBeacon]
    split
    · rename_i h1; simp [h1]
    · rename_i h1; simp [h1]
    · rename_i j who els h1
      obtain ⟨raws, hraws⟩ := elementsOf_exists els
      obtain ⟨o, ho, -⟩ := heard_total hraws
      simp only [h1, ho, Res.ok_bind, pure]
      simp
  · have hm := (match_mgmt readAssociationRequest readAssociationRequest_safe
      (fun r => (r.1.transmitter_address, r.2.elements)) [.AssociationRequest] (by decide) fcs frame).1
    simp only [List.map_cons, List.map_nil] at hm
    rw [← hm, hearRequest]
    split
    · rename_i h1; simp [h1]
    · rename_i h1; simp [h1]
    · rename_i j who els h1
      obtain ⟨raws, hraws⟩ := elementsOf_exists els
      obtain ⟨o, ho, -⟩ := heard_total hraws
      simp only [h1, ho, Res.ok_bind, pure]
      simp

/-- Whatever a station receives, it chooses a link only from suites of its own, and only if a beacon of that network has an
RSN element with these suites in it; and then it is the first of its own in that element. -/
theorem c108_chosen_only (sta : Security) (fcs : Bool) (frame : Bytes) (who : Mac) (l : SecLink)
    (h : hearBeacon sta fcs frame = .ok (some (who, some l))) :
    ∃ (hd : ManagementFrameHeader) (b0 : Byte) (fixed els : Bytes) (raws : List RawElement) (ap : Heard),
      frame = withFcs fcs (b0 :: hd.fcf_flags.bits :: (mgmtHeaderWire hd ++ (fixed ++ els))) ∧
      b0.toNat / 4 % 4 = 0 ∧ b0.toNat / 16 = 8 ∧ hd.bssid = who ∧ fixed.length = 12 ∧
      ElementsOf els raws ∧ (∃ r ∈ raws, r.tlv_type = 48 ∧ ap.SaidBy r.slice) ∧
      AgreedLink sta ⟨ap.ciphers, ap.akms, ap.mfp⟩ ap.group l := by
  have hm := (match_mgmt readBeaconLike readBeaconLike_safe (fun r => (r.1.bssid, r.2.elements)) [.Beacon] (by decide) fcs
    frame).2.2
  simp only [List.map_cons, List.map_nil] at hm
  unfold hearBeacon at h
  split at h
  · cases h
  · cases h
  · rename_i j who' els hr
    obtain ⟨inner, hin, k, hk, hkind, ⟨hd, body⟩, n, hread, hx⟩ := hm _ _ hr
    simp only [Prod.mk.injEq] at hx
    obtain ⟨rfl, rfl⟩ := hx
    have hbr : Bounded readBeaconLike := by
      intro inp b k h
      obtain ⟨_, _, _, _, h, _⟩ := c22_beacon.parse inp b k h
      omega
    obtain ⟨b0, rest, m, h1, h2, h3, h4, -⟩ := c23_parse _ hbr false inner hd body n hread
    obtain ⟨fx, h5, h6, -⟩ := c22_beacon.parse _ _ _ h4
    obtain ⟨raws, hraws⟩ := elementsOf_exists body.elements
    obtain ⟨o, ho, hsaid⟩ := heard_total hraws
    simp only [ho, Res.ok_bind, pure, Res.ok.injEq, Option.some.injEq, Prod.mk.injEq] at h
    obtain ⟨rfl, h⟩ := h
    obtain ⟨ap, rfl, hap⟩ := Option.bind_eq_some_iff.1 h
    refine ⟨hd, b0, fx, body.elements, raws, ap, ?_, ?_, ?_, rfl, h6, hraws, hsaid ap rfl,
      (choose_iff sta ⟨ap.ciphers, ap.akms, ap.mfp⟩ ap.group l).1 hap⟩
    · rw [hin, h1, h5]
      rfl
    all_goals
      obtain ⟨c0, c1, r', hc, hk1, hk2, -⟩ := hkind
      rw [h1] at hc
      simp only [withFcs, Bool.false_eq_true, if_false, List.cons.injEq] at hc
      obtain ⟨rfl, -⟩ := hc
      simp only [List.mem_cons, List.not_mem_nil, or_false] at hk
      subst hk
      first | exact hk1 | exact hk2

/-- Whatever an access point receives, it accepts a link only with suites that it takes and its own group cipher suite, and
only if an association request of that station has an RSN element with exactly these suites. -/
theorem c108_accepted_only (ap : Security) (g : IEEE80211CipherSuiteSelector) (fcs : Bool) (frame : Bytes) (who : Mac)
    (l : SecLink) (h : hearRequest ap g fcs frame = .ok (some (who, some l))) :
    l.group = g ∧ l.pairwise ∈ ap.ciphers ∧ l.akm ∈ ap.akms ∧
    ∃ (hd : ManagementFrameHeader) (b0 : Byte) (fixed els : Bytes) (raws : List RawElement) (m : OptionalFeatureConfig),
      frame = withFcs fcs (b0 :: hd.fcf_flags.bits :: (mgmtHeaderWire hd ++ (fixed ++ els))) ∧
      b0.toNat / 4 % 4 = 0 ∧ b0.toNat / 16 = 0 ∧ hd.transmitter_address = who ∧ fixed.length = 4 ∧
      ElementsOf els raws ∧
      (∃ r ∈ raws, r.tlv_type = 48 ∧ (⟨l.group, [l.pairwise], [l.akm], m⟩ : Heard).SaidBy r.slice) ∧
      mfpUsed m ap.mfp = some l.protect := by
  have hm := (match_mgmt readAssociationRequest readAssociationRequest_safe
    (fun r => (r.1.transmitter_address, r.2.elements)) [.AssociationRequest] (by decide) fcs frame).2.2
  simp only [List.map_cons, List.map_nil] at hm
  unfold hearRequest at h
  split at h
  · cases h
  · cases h
  · rename_i j who' els hr
    obtain ⟨inner, hin, k, hk, hkind, ⟨hd, body⟩, n, hread, hx⟩ := hm _ _ hr
    simp only [Prod.mk.injEq] at hx
    obtain ⟨rfl, rfl⟩ := hx
    have hbr : Bounded readAssociationRequest := by
      intro inp b k h
      obtain ⟨_, _, _, _, h, _⟩ := c22_association_request.parse inp b k h
      omega
    obtain ⟨b0, rest, m, h1, h2, h3, h4, -⟩ := c23_parse _ hbr false inner hd body n hread
    obtain ⟨fx, h5, h6, -⟩ := c22_association_request.parse _ _ _ h4
    obtain ⟨raws, hraws⟩ := elementsOf_exists body.elements
    obtain ⟨o, ho, hsaid⟩ := heard_total hraws
    simp only [ho, Res.ok_bind, pure, Res.ok.injEq, Option.some.injEq, Prod.mk.injEq] at h
    obtain ⟨rfl, h⟩ := h
    obtain ⟨x, rfl, hacc⟩ := Option.bind_eq_some_iff.1 h
    have hs := hsaid x rfl
    obtain ⟨xg, xp, xk, xm⟩ := x
    unfold Heard.accept at hacc
    split at hacc
    · rename_i c k' e1 e2
      simp only at e1 e2
      subst e1 e2
      split at hacc
      · rename_i hc
        obtain ⟨pr, hpr, rfl⟩ := Option.map_eq_some_iff.1 hacc
        simp only [Bool.and_eq_true, beq_iff_eq, List.contains_iff_mem] at hc
        obtain ⟨⟨rfl, hc1⟩, hc2⟩ := hc
        rw [settle_eq, mfpUsed_comm] at hpr
        refine ⟨rfl, hc1, hc2, hd, b0, fx, body.elements, raws, xm, ?_, ?_, ?_, rfl, h6, hraws, hs, hpr⟩
        · rw [hin, h1, h5]
          rfl
        all_goals
          obtain ⟨c0, c1, r', hc, hk1, hk2, -⟩ := hkind
          rw [h1] at hc
          simp only [withFcs, Bool.false_eq_true, if_false, List.cons.injEq] at hc
          obtain ⟨rfl, -⟩ := hc
          simp only [List.mem_cons, List.not_mem_nil, or_false] at hk
          subst hk
          first | exact hk1 | exact hk2
      · cases hacc
    · cases hacc

/-! ## The presets of the crate -/

private def exHeader : ManagementFrameHeader :=
  ⟨⟨0⟩, 0, ⟨[1, 2, 3, 4, 5, 6], rfl⟩, ⟨[7, 8, 9, 10, 11, 12], rfl⟩, ⟨[1, 2, 3, 4, 5, 6], rfl⟩, ⟨0⟩, none⟩

private def exRejoin : Rejoin := ⟨exHeader, ⟨0⟩, 1, [], []⟩

omit [Crc32] in
private theorem exFine : exRejoin.Fine where
  ht := by unfold HtConsistent; decide
  items := by simp [exRejoin]
  last := by simp [exRejoin]

/-- Violation: a network with the preset `WPA2_WPA3_PERSONAL` of the crate is joined by no station. -/
theorem c108_preset_lost (sta : Security) (a : Rejoin) (ha : a.Fine) (b : BeaconLikeBody Unit) (fcs : Bool) :
    ∃ size, ∀ buf : Bytes, size ≤ buf.length → ∃ frame,
      beaconSaying a b (.typed (rsnElem RsnElement.WPA2_WPA3_PERSONAL)) fcs buf = .ok frame ∧
      hearBeacon sta fcs frame = .ok (some (a.header.bssid, none)) :=
  c108_required_lost sta ⟨[.Ccmp128], [.Psk, .Sae], .Required⟩ .Ccmp128 rfl (by simp [IEEE80211CipherSuiteSelector.Canonical])
    (by simp [IEEE80211CipherSuiteSelector.Canonical]) (by simp [IEEE80211AkmType.Canonical]) (by decide) a ha b fcs

/-- With the preset `WPA2_PERSONAL` there is a link, without protection. -/
example : ∃ size, ∀ buf : Bytes, size ≤ buf.length → ∃ frame,
    beaconSaying exRejoin ⟨0, 100, ⟨0⟩, ()⟩ (.typed (rsnElem RsnElement.WPA2_PERSONAL)) true buf = .ok frame ∧
    hearBeacon ⟨[.Ccmp256, .Ccmp128], [.Sae, .Psk], .Capable⟩ true frame =
      .ok (some (exHeader.bssid, some ⟨.Ccmp128, .Ccmp128, .Psk, false⟩)) := by
  obtain ⟨o, h1, h2, -⟩ := c108_agree_partial ⟨[.Ccmp256, .Ccmp128], [.Sae, .Psk], .Capable⟩
    ⟨[.Ccmp128], [.Psk], .Disabled⟩ .Ccmp128 (by simp) (by simp) (by simp [IEEE80211CipherSuiteSelector.Canonical])
    (by simp [IEEE80211CipherSuiteSelector.Canonical]) (by simp [IEEE80211AkmType.Canonical]) (by decide) exRejoin exRejoin
    exFine exFine ⟨0, 100, ⟨0⟩, ()⟩ true
  rw [(h1 ⟨.Ccmp128, .Ccmp128, .Psk, false⟩).2 ⟨rfl, ⟨[.Ccmp256], [], rfl, by simp, by simp⟩, ⟨[.Sae], [], rfl, by simp, by simp⟩,
    rfl⟩] at h2
  exact h2

/-- Both are capable: the access point accepts the link with protection. -/
example : ∃ size, ∀ buf : Bytes, size ≤ buf.length → ∃ frame,
    rejoin exRejoin (.typed (rsnElem ((⟨[.Ccmp128], [.Sae], .Capable⟩ : Security).answer ⟨.Tkip, .Ccmp128, .Sae, true⟩)))
      true buf = .ok frame ∧
    hearRequest ⟨[.Tkip, .Ccmp128], [.Psk, .Sae], .Capable⟩ .Tkip true frame =
      .ok (some (exHeader.transmitter_address, some ⟨.Tkip, .Ccmp128, .Sae, true⟩)) := by
  obtain ⟨o, h1, -, h3⟩ := c108_agree_partial ⟨[.Ccmp128], [.Sae], .Capable⟩ ⟨[.Tkip, .Ccmp128], [.Psk, .Sae], .Capable⟩ .Tkip
    (by simp) (by simp) (by simp [IEEE80211CipherSuiteSelector.Canonical])
    (by simp [IEEE80211CipherSuiteSelector.Canonical]) (by simp [IEEE80211AkmType.Canonical]) (by decide) exRejoin exRejoin
    exFine exFine ⟨0, 100, ⟨0⟩, ()⟩ true
  exact h3 _ ((h1 _).2 ⟨rfl, ⟨[], [], rfl, by simp, by simp⟩, ⟨[], [], rfl, by simp, by simp⟩, rfl⟩)

end Verif
