import Verif.Model.Elements.Table
import Verif.Props.C06
import Verif.Props.C07
import Verif.Props.C10
import Verif.Props.C11
import Verif.Props.C12
import Verif.Props.C13
import Verif.Props.C14
import Verif.Props.C16
import Verif.Props.C17
import Verif.Props.C19
/-!
# C54: every element is written under its number and found by its type
-/
namespace Verif

namespace Spec

/-- Element numbers, IEEE 802.11 table 9-92. -/
inductive ElementName where
  | ssid | supportedRates | dsss | tim | ibss | bssLoad | htCapabilities | rsn | extendedRates
  | htOperation | meshConfiguration | meshId | meshPeering | vhtCapabilities | vhtOperation | vendor

def ElementName.number : ElementName → Byte
  | .ssid => 0
  | .supportedRates => 1
  | .dsss => 3
  | .tim => 5
  | .ibss => 6
  | .bssLoad => 11
  | .htCapabilities => 45
  | .rsn => 48
  | .extendedRates => 50
  | .htOperation => 61
  | .meshConfiguration => 113
  | .meshId => 114
  | .meshPeering => 117
  | .vhtCapabilities => 191
  | .vhtOperation => 192
  | .vendor => 221

/-- In an element list the element is its number, the length and `body`; looking for an element of the
kind finds the first element with that number, and if it has this body, gives the value `a`. -/
structure Travels [ScrollRule] {α : Type} (name : ElementName) (elem : Elem) (kind : ElementKind α)
    (body : Bytes) (a : α) : Prop where
  item : ∃ x, ItemOf (.typed elem) ⟨name.number, body⟩ x
  found : ∀ (bytes : Bytes) (pre post : List RawElement),
    ElementsOf bytes (pre ++ ⟨name.number, body⟩ :: post) → (∀ r ∈ pre, r.tlv_type ≠ name.number) →
    getFirstElement bytes kind = .ok (some a)

end Spec

open Spec

variable [ScrollRule]

omit [ScrollRule] in
private theorem findRes_first {α β : Type} {f : α → Res (Option β)} {pre post : List α} {x : α} {b : β}
    (h : ∀ y ∈ pre, f y = .ok none) (hx : f x = .ok (some b)) :
    findRes f (pre ++ x :: post) = .ok (some b) := by
  induction pre with
  | nil => simp [findRes, hx]
  | cons y l ih =>
    simp only [List.cons_append, findRes, h y (by simp), Res.ok_bind]
    exact ih fun z hz => h z (List.mem_cons_of_mem _ hz)

private theorem travels {α : Type} {name : ElementName} {elem : Elem} {kind : ElementKind α}
    {body : Bytes} {a : α} {n m : Nat} (hi : elem.id = .Id name.number) (hk : kind.id = .Id name.number)
    (hw : Emits elem.obj.write body n) (hn : n ≤ body.length + slack)
    (hm : elem.obj.measure = body.length) (hl : body.length ≤ 255) (hne : slack ≤ body.length)
    (hr : kind.read body = .ok (a, m)) : Travels name elem kind body a := by
  constructor
  · refine ⟨max n slack - body.length, ?_⟩
    have := ItemOf.typed elem body n hw hn hm (by rw [hi]; exact hl)
    rwa [hi] at this
  · intro bytes pre post he hpre
    have hlen := he.length_le
    rw [getFirstElement, findMap_of_yields he.yields _ (by omega)]
    apply findRes_first
    · intro y hy
      have : (name.number == y.tlv_type) = false := by simpa using Ne.symm (hpre y hy)
      simp [matchTyped, elementIdMatches, hk, this]
    · simp only [matchTyped, elementIdMatches, hk, beq_self_eq_true, Res.ok_bind, if_true,
        parseRawElement, pread0]
      rw [if_neg (by omega), hr]
      rfl

private theorem travels_codec {α : Type} {r : Reader α} {w : α → Writer} {enc : α → Bytes}
    {valid : α → Prop} {k : Nat} (hc : Codec r w enc valid k) {name : ElementName} (a : α)
    (hv : valid a) (hk : 1 ≤ k ∧ k ≤ 255) {m : Nat} (hm : m = k) :
    Travels name ⟨.Id name.number, ⟨w a, m⟩⟩ ⟨.Id name.number, r⟩ (enc a) a := by
  have hs := slack_le
  have hl := hc.len a
  have hr := hc.read a [] hv
  rw [List.append_nil] at hr
  exact travels rfl rfl (hc.write a) (by omega) (by rw [hl]; exact hm) (by omega) (by omega) hr

/-- Elements in a chain, written and looked up. -/
theorem c54_write_find {α : Type} {name : ElementName} {elem : Elem} {kind : ElementKind α}
    {body : Bytes} {a : α} (t : Travels name elem kind body a) {c : Chain} {pre post : List RawElement}
    {x : Nat} (h : ChainOf c (pre ++ ⟨name.number, body⟩ :: post) x)
    (hpre : ∀ r ∈ pre, r.tlv_type ≠ name.number)
    (hlast : ∀ e, (pre ++ ⟨name.number, body⟩ :: post).getLast? = some e → slack ≤ e.slice.length)
    (buf : Bytes) (hb : ((pre ++ ⟨name.number, body⟩ :: post).flatMap tlv).length + x ≤ buf.length) :
    ∃ buf' n, c.write buf = .ok (buf', n) ∧ getFirstElement (buf'.take n) kind = .ok (some a) := by
  have h1 := h.emits
  have he := elementsOf_flatMap _ h.len_le hlast
  refine ⟨_, _, h1.ok buf hb, ?_⟩
  rw [List.take_left]
  exact t.found _ pre post he hpre

omit [ScrollRule] in
/-- No two names share a number. -/
theorem c54_numbers (a b : ElementName) (h : a.number = b.number) : a = b := by
  cases a <;> cases b <;> first | rfl | exact absurd h (by decide)

/-! ## The elements -/

/-- SSID; with the strict rule of `scroll` a hidden SSID is not found. -/
theorem c54_ssid (s : Str) (e : SSIDLikeElement) (h : SSIDLikeElement.new s = some e)
    (hne : slack ≤ s.bytes.length) : Travels .ssid (ssidElem e) ssidKind s.bytes e := by
  have hs := slack_le
  obtain ⟨hw, hm⟩ := c10_write e
  obtain ⟨hl, rfl⟩ := (c10_new s e).1 h
  exact travels rfl rfl hw (by omega) hm (by omega) hne (c10_round_trip _ _ h)

/-- Mesh ID. -/
theorem c54_mesh_id (s : Str) (e : SSIDLikeElement) (h : SSIDLikeElement.new s = some e)
    (hne : slack ≤ s.bytes.length) : Travels .meshId (meshIdElem e) meshIdKind s.bytes e := by
  have hs := slack_le
  obtain ⟨hw, hm⟩ := c10_write e
  obtain ⟨hl, rfl⟩ := (c10_new s e).1 h
  exact travels rfl rfl hw (by omega) hm (by omega) hne (c10_round_trip _ _ h)

/-- Supported rates: what is found yields the rates. -/
theorem c54_supported_rates (l : List EncodedRate) (e : RatesElement) (h : newSupportedRates l = some e)
    (hne : slack ≤ l.length) : ∃ it,
    Travels .supportedRates (supportedRatesElem e) supportedRatesKind (l.map EncodedRate.bits) it ∧
    ∀ l', RatesYields it l' ↔ l' = l := by
  have hs := slack_le
  obtain ⟨hw, hm⟩ := c11_write_supported l e h
  obtain ⟨it, hr, hy⟩ := c11_round_trip_supported l e h
  have hl := ((c11_new_supported l e).1 h).1
  exact ⟨it, travels rfl rfl hw (by simp) (by rw [List.length_map]; exact hm) (by simp; omega) (by simpa using hne) hr, hy⟩

/-- Extended supported rates. -/
theorem c54_extended_rates (l : List EncodedRate) (e : RatesElement)
    (h : newExtendedSupportedRates l = some e) (hne : slack ≤ l.length) : ∃ it,
    Travels .extendedRates (extendedSupportedRatesElem e) extendedSupportedRatesKind
      (l.map EncodedRate.bits) it ∧ ∀ l', RatesYields it l' ↔ l' = l := by
  have hs := slack_le
  obtain ⟨hw, hm⟩ := c11_write_extended e
  obtain ⟨it, hr, hy⟩ := c11_round_trip_extended l e h
  obtain ⟨hl, rfl⟩ := (c11_new_extended l e).1 h
  exact ⟨it, travels rfl rfl hw (by simp) (by rw [List.length_map]; exact hm) (by simp; omega) (by simpa using hne) hr, hy⟩

theorem c54_dsss (e : DSSSParameterSetElement) :
    Travels .dsss (dsssElem e) dsssKind [e.current_channel] e :=
  travels_codec c12_dsss e trivial (by decide) rfl

theorem c54_ibss (e : IBSSParameterSetElement) :
    Travels .ibss (ibssElem e) ibssKind (toLE e.atim_window) e :=
  travels_codec c12_ibss e trivial (by decide) rfl

theorem c54_bss_load (e : BSSLoadElement) :
    Travels .bssLoad (bssLoadElem e) bssLoadKind (toLE e.station_count ++ e.channel_utilization ::
      toLE e.available_admission_capacity) e :=
  travels_codec c12_bss_load e trivial (by decide) rfl

theorem c54_vht_capabilities (e : VHTCapabilitiesElement) :
    Travels .vhtCapabilities (vhtCapabilitiesElem e) vhtCapabilitiesKind
      (toLE e.vht_capabilities_info.bits ++ toLE e.supported_vht_mcs_and_nss_set.bits) e :=
  travels_codec c12_vht_capabilities e trivial (by decide) rfl

theorem c54_vht_operation (e : VHTOperationElement) (h : e.channel_bandwidth.Canonical) :
    Travels .vhtOperation (vhtOperationElem e) vhtOperationKind
      (e.channel_bandwidth.intoBits :: e.channel_center_frequency_segment_0 ::
        e.channel_center_frequency_segment_1 :: toLE e.basic_vht_mcs_and_nss_set.bits) e :=
  travels_codec c12_vht_operation e h (by decide) rfl

theorem c54_mesh_configuration (e : MeshConfigurationElement)
    (h1 : e.active_path_selection_protocol_identifier.Canonical)
    (h2 : e.active_path_selection_metric_identifier.Canonical)
    (h3 : e.congestion_control_mode_identifier.Canonical)
    (h4 : e.syncronization_method_identifier.Canonical)
    (h5 : e.authentication_protocol_identifier.Canonical) :
    Travels .meshConfiguration (meshConfigurationElem e) meshConfigurationKind
      [e.active_path_selection_protocol_identifier.intoBits,
        e.active_path_selection_metric_identifier.intoBits,
        e.congestion_control_mode_identifier.intoBits, e.syncronization_method_identifier.intoBits,
        e.authentication_protocol_identifier.intoBits, e.mesh_formation_info.bits,
        e.mesh_capability.bits] e :=
  travels_codec c12_mesh_configuration e ⟨h1, h2, h3, h4, h5⟩ (by decide) rfl

theorem c54_ht_capabilities (e : HTCapabilitiesElement) :
    Travels .htCapabilities (htCapabilitiesElem e) htCapabilitiesKind (htCapabilities e) e := by
  have hs := slack_le
  obtain ⟨hw, hl, hm⟩ := c13_write e
  have hr := c13_round_trip e []
  rw [List.append_nil] at hr
  exact travels rfl rfl hw (by omega) (by rw [hl]; exact hm) (by omega) (by omega) hr

/-- HT operation: number, channel and MCS set are right; the information word is what survives C14. -/
theorem c54_ht_operation_partial (e : HTOperationElement) : ∃ i,
    Travels .htOperation (htOperationElem e) htOperationKind ([e.primary_channel] ++
      (toLE e.ht_operation_information.bits).reverse.take 5 ++ encMCSSet e.basic_ht_mcs_set)
      ⟨e.primary_channel, ⟨i⟩, e.basic_ht_mcs_set⟩ := by
  have hs := slack_le
  obtain ⟨hw, hm⟩ := c14_write_partial e
  obtain ⟨i, hr, _⟩ := c14_round_trip_partial e []
  rw [List.append_nil] at hr
  have hl : ([e.primary_channel] ++ (toLE e.ht_operation_information.bits).reverse.take 5 ++
      encMCSSet e.basic_ht_mcs_set).length = 22 := by simp
  exact ⟨i, travels rfl rfl hw (by omega) (by rw [hl]; exact hm) (by omega) (by omega) hr⟩

/-- TIM: for the maps whose size is reported rightly (C16, C09), that is not those made by `new_static`. -/
theorem c54_tim_partial (e : TIMElement) (ctl : TIMBitmapControl) (bits : TIMBits) (map : Bytes)
    (hd : ¬ e.dtim_period < e.dtim_count) (hb : e.bitmap = some ⟨ctl, some bits⟩)
    (hm : bits.asBytes = .ok map) (hst : ∀ b n, bits ≠ .static b n) (hl : map.length ≤ 252) :
    ∃ el, timElem e = .ok el ∧ Travels .tim el timKind
      ([e.dtim_count, e.dtim_period, ctl.bits] ++ map)
      ⟨e.dtim_count, e.dtim_period, some ⟨ctl, some (.slice map)⟩⟩ := by
  have hs := slack_le
  obtain ⟨n, hn, _, hw⟩ := (c16_write e map (by
    intro b bs h1 h2
    rw [hb] at h1
    cases h1
    cases h2
    exact hm)).2 hd
  have hwire : timBytes e map = [e.dtim_count, e.dtim_period, ctl.bits] ++ map := by
    simp [timBytes, hb]
  have hbits : bits.measure = .ok map.length := by
    cases bits with
    | slice b => simp only [TIMBits.asBytes, Res.ok.injEq] at hm; subst hm; rfl
    | static b n => exact absurd rfl (hst b n)
    | const b n1 n2 => simp only [TIMBits.measure, hm, Res.map]
  have hmeas : measureTIM e = .ok (2 + (1 + map.length)) := by
    simp only [measureTIM, hb, TIMBitmap.measure, hbits, Res.map]
  obtain ⟨b', hr, h1, h2, _⟩ := c16_round_trip e ⟨ctl, some bits⟩ bits map hd hb rfl hm
  obtain ⟨c', p'⟩ := b'
  simp only at h1 h2
  subst h1 h2
  rw [hwire] at hw hr hn
  refine ⟨_, by simp only [timElem, hmeas, Res.ok_bind]; rfl, ?_⟩
  refine travels rfl rfl hw hn ?_ (by simp; omega) (by simp; omega) hr
  simp only [List.length_append, List.length_cons, List.length_nil]; omega

/-- RSN: for elements without PMKIDs (C17), when they fit. -/
theorem c54_rsn_partial (e : RsnElement.OfLists) (hwf : RsnWf e) (hs : RsnSmall e)
    (hc : RsnCanonical e) (he : RsnEndOk e) (hm : ∀ l, e.pmkid_list = some l → l = [])
    (hl : (rsnWire 1 e).length ≤ 255) : ∃ q,
    Travels .rsn (rsnElem e) rsnKind (rsnWire 1 e) q ∧ RsnSame q e := by
  have hsl := slack_le
  have hw := c17_write e hwf hs he
  obtain ⟨q, hr, hsame⟩ := c17_read e hwf hs hc he [] (.inl rfl)
  rw [List.append_nil] at hr
  rw [c17_standard_partial e hm] at hw hr
  refine ⟨q, travels rfl rfl hw (by omega) (c17_measure_partial e 1 hm) hl ?_ hr, hsame⟩
  simp [rsnWire]; omega

/-- Mesh peering management. -/
theorem c54_mesh_peering (e : MeshPeeringManagement) (t : Bytes) (h : HoldsTail e t)
    (hc : e.mesh_peering_protocol_identifier.Canonical) :
    Travels .meshPeering (meshPeeringElem e) meshPeeringKind
      (toLE e.mesh_peering_protocol_identifier.intoBits ++ toLE e.local_link_id ++ t) e := by
  have hsl := slack_le
  obtain ⟨hw, hm⟩ := c19_write e t h
  have hl := h.1
  have hlen : (toLE e.mesh_peering_protocol_identifier.intoBits ++ toLE e.local_link_id ++ t).length =
      4 + t.length := by simp; omega
  obtain ⟨out, ho, hr⟩ := c19_round_trip e t h hc (List.replicate 24 0) (by simp; omega)
  have ho' := hw.ok (List.replicate 24 0) (by simp; omega)
  rw [ho] at ho'
  simp only [Res.ok.injEq, Prod.mk.injEq] at ho'
  obtain ⟨rfl, hme⟩ := ho'
  rw [hme, List.take_left] at hr
  refine travels rfl rfl hw ?_ hme ?_ ?_ hr
  · rw [hlen]; omega
  · rw [hlen]; omega
  · rw [hlen]; omega

/-- Any vendor's element, prefix included. -/
theorem c54_vendor (p : Bytes) (hl : p.length ≤ 255) (hne : slack ≤ p.length) :
    Travels .vendor (vendorElem ⟨writeBytes p, p.length⟩) vendorKind p p := by
  have hsl := slack_le
  have hw : Emits (vendorElem ⟨writeBytes p, p.length⟩).obj.write p (max p.length slack) :=
    WEmits.run (WEmits.gwrite (Emits.bytes p))
  exact travels rfl rfl hw (by omega) rfl hl hne rfl

omit [ScrollRule] in
/-- Violation: an SSID that hides the name is written as an element which, with the strict rule of
`scroll`, is not found again. -/
theorem c54_hidden_ssid_strict : letI : ScrollRule := ⟨true⟩
    (ssidElem ⟨⟨[], rfl⟩⟩).writeWrapped (List.replicate 3 9) = .ok ([0, 0, 9], 2) ∧
    getFirstElement [0, 0, 9, 9] ssidKind = .ok none := by decide

/-- Violation: with the strict rule no lookup of names ever returns a hidden one, whatever the elements are and
wherever it stands among them. -/
theorem c54_hidden_never_strict (hs : slack = 1) (bytes : Bytes) :
    (∀ l, getMatchingElements bytes ssidKind = .ok l → ∀ e ∈ l, e.isHidden = false) ∧
    (∀ e, getFirstElement bytes ssidKind = .ok (some e) → e.isHidden = false) := by
  obtain ⟨raws, hr⟩ := elementsOf_exists bytes
  have hsafe : ∀ p, ssidKind.read p ≠ .panic := by
    intro p h
    by_cases hc : p.length ≤ 32 ∧ IsUtf8 p
    · have := (c10_parse p ⟨⟨p, (utf8Valid_iff _).2 hc.2⟩⟩ p.length).2 ⟨hc.1, hc.2, rfl, rfl⟩
      rw [show ssidKind.read p = readSSID p from rfl, this] at h
      cases h
    · obtain ⟨x, hx⟩ := c10_parse_error p hc
      rw [show ssidKind.read p = readSSID p from rfl, hx] at h
      cases h
  have hp : ∀ p e, parsed ssidKind p = some e → e.isHidden = false := by
    intro p e h
    unfold parsed at h
    split at h
    · cases h
    · rename_i hlen
      split at h
      · rename_i a n hrd
        cases h
        have h3 := ((c10_parse p e n).1 hrd).2.2.1
        rw [← Bool.not_eq_true, c10_hidden, h3]
        rintro rfl
        simp only [List.length_nil] at hlen
        omega
      · cases h
  constructor
  · intro l hl e he
    rw [c07_matching hr ssidKind (by decide) hsafe] at hl
    cases hl
    obtain ⟨r, -, h2⟩ := List.mem_filterMap.1 he
    obtain ⟨p, -, h3⟩ := Option.bind_eq_some_iff.1 h2
    exact hp p e h3
  · intro e he
    obtain ⟨pre, post, p, -, h2, -⟩ := (c07_first_some hr ssidKind (by decide) hsafe e).1 he
    exact hp p e h2

/-! ## Identifiers -/

omit [ScrollRule] in
/-- The parts of an identifier: the element number, the extension number exactly for extension elements
(number 255), the prefix exactly for vendor elements (number 221), and the length of what comes before the
contents. -/
theorem c54_identifier (id : ElementID) (p : Bytes) :
    (rawOf id p).tlv_type = id.id ∧
    (id.isExt = true ↔ id.extId.isSome = true) ∧
    (id.extId.isSome = true → id.id = 255 ∧ (rawOf id p).slice = id.extId.toList ++ p) ∧
    (id.vendorPrefix.isSome = true → id.id = 221 ∧ (rawOf id p).slice = id.vendorPrefix.getD [] ++ p) ∧
    (id.extId = none → id.vendorPrefix = none → (rawOf id p).slice = p) ∧
    id.elementHeaderLength + p.length = (tlv (rawOf id p)).length := by
  cases id <;> simp [rawOf, ElementID.id, ElementID.isExt, ElementID.extId, ElementID.vendorPrefix,
    ElementID.elementHeaderLength, tlv] <;> omega

/-- A raw extension element is its number and its contents; it is measured rightly. -/
theorem c54_raw_ext_write (e : RawExtElement) :
    Emits (writeRawExtElement e) (e.ext_id :: e.slice) (1 + max e.slice.length slack) ∧
      e.measure = (e.ext_id :: e.slice).length := by
  refine ⟨WEmits.run ?_, rfl⟩
  apply WEmits.u8
  exact WEmits.gwrite (Emits.bytes _)

/-- Reading inverts it. -/
theorem c54_raw_ext_read (inp : Bytes) (e : RawExtElement) :
    (∃ n, readRawExtElement inp = .ok (e, n)) ↔ inp = e.ext_id :: e.slice := by
  have hs := slack_le
  have ok : ∀ (x : Byte) (l : Bytes), readRawExtElement (x :: l) = .ok (⟨x, l⟩, 1) := by
    intro x l
    apply RdAt.run
    apply RdAt.cast
    · apply RdAt.u8
      exact RdAt.bind_pure RdAt.remaining rfl
    · rfl
  cases inp with
  | nil =>
    have : ∃ x, readRawExtElement [] = .err x :=
      RdErr.run (RdErr.bind_left (RdErr.gread (e := .tooBig) rfl))
    obtain ⟨x, hx⟩ := this
    simp [hx]
  | cons x l =>
    rw [ok]
    obtain ⟨y, m⟩ := e
    simp

omit [ScrollRule] in
/-- The vendor's payload behind a prefix; never a panic. -/
theorem c54_prefix (payload pfx p : Bytes) :
    (getPayloadIfPrefixMatches payload pfx = .ok (some p) ↔ payload = pfx ++ p) ∧
    (getPayloadIfPrefixMatches payload pfx = .ok none ↔ ¬ ∃ q, payload = pfx ++ q) := by
  by_cases h : pfx <+: payload
  · have h' := h
    obtain ⟨q, rfl⟩ := h
    have hp : pfx.isPrefixOf (pfx ++ q) = true := by simp
    simp only [getPayloadIfPrefixMatches, hp, if_true]
    rw [if_pos (by simp)]
    simp
  · have : pfx.isPrefixOf payload = false := by
      rw [Bool.eq_false_iff]; simpa using h
    simp only [getPayloadIfPrefixMatches, this, Bool.false_eq_true, if_false, Res.ok.injEq, reduceCtorEq,
      true_iff, false_iff]
    exact ⟨fun e => h ⟨p, e.symm⟩, fun ⟨q, e⟩ => h ⟨q, e.symm⟩⟩

/-! ## Concrete cases -/

omit [ScrollRule] in
/-- A chain of four elements is written; channel and name are found by type. -/
example (s : Bool) : letI : ScrollRule := ⟨s⟩
    let out : Bytes := [0, 2, 0x61, 0x62, 1, 2, 0x82, 0x84, 3, 1, 11, 11, 5, 1, 0, 2, 3, 0]
    (elementChain (.typed (ssidElem ⟨⟨[0x61, 0x62], by decide⟩⟩))
      [.typed (supportedRatesElem ⟨[⟨0x82⟩, ⟨0x84⟩]⟩), .typed (dsssElem ⟨11⟩),
        .typed (bssLoadElem ⟨1, 2, 3⟩)]).write (List.replicate 18 0) = .ok (out, 18) ∧
      getFirstElement out dsssKind = .ok (some ⟨11⟩) ∧
      getFirstElement out ssidKind = .ok (some ⟨⟨[0x61, 0x62], by decide⟩⟩) ∧
      getFirstElement out ibssKind = .ok none := by
  cases s <;> decide +kernel

end Verif
