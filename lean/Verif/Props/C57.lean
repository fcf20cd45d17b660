import Verif.Props.C07
import Verif.Props.C10
import Verif.Props.C23
import Verif.Props.C54
/-!
# C57: accessors of received management bodies

`Spec.SsidBytes p` says which payloads are names: at most 32 bytes of UTF-8 (and, with the strict rule
of `scroll`, not empty).
-/
namespace Verif

namespace Spec

/-- A payload that is accepted as a network name. -/
def SsidBytes [ScrollRule] (p : Bytes) : Prop := slack ≤ p.length ∧ p.length ≤ 32 ∧ IsUtf8 p

/-- Microseconds in a time unit of the standard. -/
def timeUnit : Nat := 1024

end Spec

open Spec

variable [ScrollRule]

private theorem length_of {β : Type → Type} {read : Reader (β Bytes)} {write : β Obj → Writer}
    {get : (ε : Type) → β ε → ε} {set : (ε δ : Type) → β ε → δ → β δ}
    {fixed : (ε : Type) → β ε → Bytes} {valid : β Bytes → Prop} {n : Nat} {need : Nat → Nat}
    {same : Bytes → Bytes → Prop} (h : BodyOf read write get set fixed valid n need same)
    (len : β Bytes → Nat) (hl : ∀ b, len b = n + (get _ b).length) (inp : Bytes) (b : β Bytes) (k : Nat)
    (hr : read inp = .ok (b, k)) : len b = inp.length ∧ len b = k := by
  obtain ⟨f, rfl, hf, _, rfl, _⟩ := h.parse inp b k hr
  simp [hl, hf]

/-- `length_in_bytes` of a parsed body is the number of bytes it was parsed from, all of which were
consumed. -/
theorem c57_length (inp : Bytes) (k : Nat) :
    (∀ b, readAssociationRequest inp = .ok (b, k) →
      b.lengthInBytes = inp.length ∧ b.lengthInBytes = k) ∧
    (∀ b, readAssociationResponse inp = .ok (b, k) →
      b.lengthInBytes = inp.length ∧ b.lengthInBytes = k) ∧
    (∀ b, readAuthentication inp = .ok (b, k) →
      b.lengthInBytes = inp.length ∧ b.lengthInBytes = k) ∧
    (∀ b, readBeaconLike inp = .ok (b, k) →
      b.lengthInBytes = inp.length ∧ b.lengthInBytes = k) ∧
    (∀ b, readDisassociation inp = .ok (b, k) →
      b.lengthInBytes = inp.length ∧ b.lengthInBytes = k) ∧
    (∀ b, readDeauthentication inp = .ok (b, k) →
      b.lengthInBytes = inp.length ∧ b.lengthInBytes = k) ∧
    (∀ b, readProbeRequest inp = .ok (b, k) →
      b.lengthInBytes = inp.length ∧ b.lengthInBytes = k) :=
  ⟨fun b => length_of c22_association_request _ (fun _ => rfl) inp b k,
    fun b => length_of c22_association_response _ (fun _ => rfl) inp b k,
    fun b => length_of c22_authentication _ (fun _ => rfl) inp b k,
    fun b => length_of c22_beacon _ (fun _ => rfl) inp b k,
    fun b => length_of c22_disassociation _ (fun _ => rfl) inp b k,
    fun b => length_of c22_deauthentication _ (fun _ => rfl) inp b k,
    fun b => length_of c22_probe_request _ (fun _ => (Nat.zero_add _).symm) inp b k⟩

omit [ScrollRule] in
/-- The beacon interval is converted from time units to microseconds without overflow. -/
theorem c57_beacon_interval {ε : Type} (b : BeaconLikeBody ε) :
    b.beaconIntervalMicros = .ok (timeUnit * b.beacon_interval.toNat) := by
  have := b.beacon_interval.isLt
  simp only [BeaconLikeBody.beaconIntervalMicros, timeUnit]
  rw [if_pos (by omega), Nat.mul_comm]

/-- The timestamp is the little-endian number in the first eight bytes, in microseconds. -/
theorem c57_timestamp (inp : Bytes) (b : BeaconLikeBody Bytes) (k : Nat)
    (h : readBeaconLike inp = .ok (b, k)) : b.timestampMicros = (fromLE 64 (inp.take 8)).toNat := by
  obtain ⟨f, rfl, hf, rfl, _⟩ := c22_beacon.parse inp b k h
  simp only [BeaconLikeBody.timestampMicros]
  rw [List.append_assoc, List.append_assoc, List.take_append_of_le_length (by simp),
    List.take_of_length_le (by simp), fromLE_toLE (by decide)]

omit [ScrollRule] in
private theorem ssid_safe (p : Bytes) : readSSID p ≠ .panic := by
  intro h
  by_cases hp : p.length ≤ 32 ∧ IsUtf8 p
  · have := (c10_parse p ⟨⟨p, (utf8Valid_iff p).2 hp.2⟩⟩ p.length).2 ⟨hp.1, hp.2, rfl, rfl⟩
    rw [this] at h; cases h
  · obtain ⟨x, hx⟩ := c10_parse_error p hp
    rw [hx] at h; cases h

private theorem parsed_some (p : Bytes) (e : SSIDLikeElement) :
    parsed ⟨.Id 0, readSSID⟩ p = some e ↔ SsidBytes p ∧ e.ssid.bytes = p := by
  unfold parsed SsidBytes
  by_cases hs : p.length < slack
  · rw [if_pos hs]
    constructor
    · intro h; cases h
    · intro h; omega
  · rw [if_neg hs]
    constructor
    · intro h
      split at h
      · rename_i a n hr
        cases h
        obtain ⟨h1, h2, h3, _⟩ := (c10_parse _ _ _).1 hr
        exact ⟨⟨by omega, h1, h2⟩, h3⟩
      · cases h
    · rintro ⟨⟨_, h1, h2⟩, h3⟩
      simp only [(c10_parse p e p.length).2 ⟨h1, h2, h3, rfl⟩]

private theorem parsed_none (p : Bytes) :
    parsed ⟨.Id 0, readSSID⟩ p = none ↔ ¬ SsidBytes p := by
  constructor
  · intro h hp
    have := (parsed_some p ⟨⟨p, (utf8Valid_iff p).2 hp.2.2⟩⟩).2 ⟨hp, rfl⟩
    rw [h] at this; cases this
  · intro h
    cases hp : parsed ⟨.Id 0, readSSID⟩ p with
    | none => rfl
    | some e => exact absurd ((parsed_some p e).1 hp).1 h

/-- `ssid()` returns `s` exactly when `s` is the payload of the first element with number 0 that holds
a name. -/
theorem c57_ssid_some {bytes : Bytes} {raws : List RawElement} (h : ElementsOf bytes raws) (s : Str) :
    bodySsid bytes = .ok (some s) ↔
      ∃ pre post, raws = pre ++ ⟨0, s.bytes⟩ :: post ∧ SsidBytes s.bytes ∧
        ∀ r ∈ pre, r.tlv_type = 0 → ¬ SsidBytes r.slice := by
  have key := c07_first_some h ⟨.Id 0, readSSID⟩ (by simp) ssid_safe
  have e1 : bodySsid bytes = .ok (some s) ↔
      ∃ e : SSIDLikeElement, getFirstElement bytes ⟨.Id 0, readSSID⟩ = .ok (some e) ∧ e.ssid = s := by
    unfold bodySsid
    cases hg : getFirstElement bytes ⟨.Id 0, readSSID⟩ with
    | ok o => cases o <;> simp [Res.map]
    | err x => simp [Res.map]
    | panic => simp [Res.map]
  rw [e1]
  constructor
  · rintro ⟨e, he, rfl⟩
    obtain ⟨pre, post, p, hr, hp, hpre⟩ := (key e).1 he
    obtain ⟨h1, rfl⟩ := (parsed_some p e).1 hp
    refine ⟨pre, post, hr, h1, ?_⟩
    rintro ⟨t, q⟩ hm rfl
    exact (parsed_none q).1 (hpre q hm)
  · rintro ⟨pre, post, hr, h1, hpre⟩
    refine ⟨⟨s⟩, (key ⟨s⟩).2 ⟨pre, post, s.bytes, hr, (parsed_some _ _).2 ⟨h1, rfl⟩, ?_⟩, rfl⟩
    exact fun q hm => (parsed_none q).2 (hpre _ hm rfl)

/-- `ssid()` returns `None` exactly when no element with number 0 holds a name. -/
theorem c57_ssid_none {bytes : Bytes} {raws : List RawElement} (h : ElementsOf bytes raws) :
    bodySsid bytes = .ok none ↔ ∀ r ∈ raws, r.tlv_type = 0 → ¬ SsidBytes r.slice := by
  have key := c07_first_none h ⟨.Id 0, readSSID⟩ (by simp) ssid_safe
  have e1 : bodySsid bytes = .ok none ↔
      getFirstElement bytes ⟨.Id 0, readSSID⟩ = .ok none := by
    unfold bodySsid
    cases hg : getFirstElement bytes ⟨.Id 0, readSSID⟩ with
    | ok o => cases o <;> simp [Res.map]
    | err x => simp [Res.map]
    | panic => simp [Res.map]
  rw [e1, key]
  constructor
  · rintro hp ⟨t, q⟩ hm rfl
    exact (parsed_none q).1 (hp q hm)
  · exact fun hp q hm => (parsed_none q).2 (hp _ hm rfl)

/-- `ssid()` never panics or fails, whatever bytes were received. -/
theorem c57_ssid_total (bytes : Bytes) : ∃ o, bodySsid bytes = .ok o := by
  obtain ⟨raws, h⟩ := elementsOf_exists bytes
  unfold bodySsid
  rw [getFirstElement, findMap_of_yields h.yields _ (by have := h.length_le; omega),
    findRes_ok (matchTyped_eq ⟨.Id 0, readSSID⟩ (by simp) ssid_safe)]
  exact ⟨_, rfl⟩

/-- From network name to network name: a beacon or probe response whose first element 0 is the SSID
element of `s`, written with or without check sequence into any buffer that is large enough and read
back, has the same header and fields, and `ssid()` returns `s`.  Partial: the HT control field must
agree with the order bit (C21), and under the strict rule of `scroll` neither the name nor the last
element may be empty. -/
theorem c57_beacon_partial [Crc32] (sub : ManagementFrameSubtype) (hsub : ValidSubtype sub)
    (h : ManagementFrameHeader) (hc : HtConsistent h) (t : BitVec 64) (i : BitVec 16)
    (cap : CapabilitiesInformation) (s : Str) (e : SSIDLikeElement)
    (hn : SSIDLikeElement.new s = some e) (hne : slack ≤ s.bytes.length) (o : Obj)
    {c : Chain} {pre post : List RawElement} {x : Nat} (ho : o.write = c.write)
    (hch : ChainOf c (pre ++ ⟨0, s.bytes⟩ :: post) x) (hpre : ∀ r ∈ pre, r.tlv_type ≠ 0)
    (hlast : ∀ r, (pre ++ ⟨0, s.bytes⟩ :: post).getLast? = some r → slack ≤ r.slice.length)
    (fcs : Bool) :
    ∃ size, ∀ buf : Bytes, size ≤ buf.length →
      ∃ out k els n, writeMgmtFrame sub h (writeBeaconLike ⟨t, i, cap, o⟩) fcs buf = .ok (out, k) ∧
        readMgmtFrame readBeaconLike fcs (out.take k) = .ok ((h, ⟨t, i, cap, els⟩), n) ∧
        bodySsid els = .ok (some s) := by
  have hs := slack_le
  have he := hch.emits
  have hel := elementsOf_flatMap _ hch.len_le hlast
  rw [← ho] at he
  obtain ⟨size, hsz⟩ := c23_round_trip_partial c22_beacon sub hsub h hc ⟨t, i, cap, o⟩ _ _ he trivial
    (by simp [tlv]; omega) fcs
  refine ⟨size, fun buf hb => ?_⟩
  obtain ⟨out, k, hw, _, hr⟩ := hsz buf hb
  refine ⟨out, k, _, _, hw, hr, ?_⟩
  obtain ⟨hl, _⟩ := (c10_new s e).1 hn
  exact (c57_ssid_some hel s).2 ⟨pre, post, rfl, ⟨hne, hl, (utf8Valid_iff _).1 s.valid⟩,
    fun r hr h0 => absurd h0 (hpre r hr)⟩

/-! ## Concrete cases -/

omit [ScrollRule] in
/-- The first element 0 is not UTF-8, so the second one gives the name; the beacon body has 25 bytes, a
beacon interval of 102.4 ms and timestamp 1. -/
example (s : Bool) : letI : ScrollRule := ⟨s⟩
    let els : Bytes := [0, 1, 0xff, 3, 1, 11, 0, 2, 0x61, 0x62, 0, 1, 0x63]
    let inp : Bytes := [1, 0, 0, 0, 0, 0, 0, 0, 100, 0, 0x11, 0] ++ els
    readBeaconLike inp = .ok (⟨1, 100, ⟨0x11⟩, els⟩, 25) ∧
      bodySsid els = .ok (some ⟨[0x61, 0x62], by decide⟩) ∧
      (⟨1, 100, ⟨0x11⟩, els⟩ : BeaconLikeBody Bytes).lengthInBytes = 25 ∧
      (⟨1, 100, ⟨0x11⟩, els⟩ : BeaconLikeBody Bytes).beaconIntervalMicros = .ok 102400 := by
  cases s <;> decide +kernel

omit [ScrollRule] in
/-- A beacon with rates before the name, written with a check sequence of a toy checksum and read back. -/
example (s : Bool) : letI : ScrollRule := ⟨s⟩
    let _ : Crc32 := ⟨fun bs => BitVec.ofNat 32 bs.length⟩
    let m : Mac := ⟨[1, 2, 3, 4, 5, 6], rfl⟩
    let h : ManagementFrameHeader := ⟨⟨0⟩, 0, m, m, m, ⟨0x30⟩, none⟩
    let name : Str := ⟨[0x61, 0x62], by decide⟩
    let c := elementChain (.typed (supportedRatesElem ⟨[⟨0x82⟩]⟩)) [.typed (ssidElem ⟨name⟩)]
    let frame : Bytes := [0x80, 0, 0, 0, 1, 2, 3, 4, 5, 6, 1, 2, 3, 4, 5, 6, 1, 2, 3, 4, 5, 6, 0x30, 0,
      9, 0, 0, 0, 0, 0, 0, 0, 100, 0, 1, 0, 1, 1, 0x82, 0, 2, 0x61, 0x62, 43, 0, 0, 0]
    writeMgmtFrame .Beacon h (writeBeaconLike ⟨9, 100, ⟨1⟩, ⟨c.write, c.measure⟩⟩) true
        (List.replicate 47 0) = .ok (frame, 47) ∧
      readMgmtFrame readBeaconLike true frame =
        .ok ((h, ⟨9, 100, ⟨1⟩, [1, 1, 0x82, 0, 2, 0x61, 0x62]⟩), 43) ∧
      bodySsid [1, 1, 0x82, 0, 2, 0x61, 0x62] = .ok (some name) := by
  cases s <;> decide +kernel

end Verif
