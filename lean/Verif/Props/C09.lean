import Verif.Props.C06
import Verif.Props.C10
import Verif.Props.C11
import Verif.Props.C12
import Verif.Props.C13
import Verif.Props.C14
import Verif.Props.C16
import Verif.Props.C17
import Verif.Props.C19
import Verif.Props.C20
import Verif.Props.C22
import Verif.Props.C23
import Verif.Props.C26
import Verif.Props.C30
import Verif.Props.C31
import Verif.Props.C32
import Verif.Props.C37
import Verif.Props.C38
import Verif.Props.C48
import Verif.Props.C49
/-!
# C09: the reported size is the number of bytes written

`Exact w m` says all of it about one value: there are `m` bytes which are written into any buffer of
`m` bytes or more, leaving what follows alone and reporting `m`; any smaller buffer is an error.

The side conditions `slack ≤ …` below concern scroll 0.12 only, where an empty last field makes
the writer refuse a buffer of exactly the right size (`c09_strict_spare_byte`); with scroll 0.13 `slack`
is zero.
-/
namespace Verif

namespace Spec

/-- Writing takes exactly the reported number of bytes. -/
def Exact (w : Writer) (m : Nat) : Prop := ∃ bs : Bytes, bs.length = m ∧
  (∀ buf : Bytes, m ≤ buf.length → w buf = .ok (bs ++ buf.drop m, m)) ∧
  (∀ buf : Bytes, buf.length < m → ∃ e, w buf = .err e)

/-- The same of an object. -/
def ExactObj (o : Obj) : Prop := Exact o.write o.measure

end Spec

open Spec

theorem exact_of {w : Writer} {bs : Bytes} {n m : Nat} (h : Emits w bs n) (hn : n = bs.length)
    (hm : m = bs.length) : Exact w m := by
  subst hn hm
  exact ⟨bs, rfl, h.ok, h.err⟩

theorem Spec.Exact.emits {w : Writer} {m : Nat} (h : Exact w m) : ∃ bs, bs.length = m ∧ Emits w bs bs.length := by
  obtain ⟨bs, rfl, h1, h2⟩ := h
  exact ⟨bs, rfl, Nat.le_refl _, h1, h2⟩

theorem Codec.exact {α : Type} {r : Reader α} {w : α → Writer} {enc : α → Bytes} {valid : α → Prop}
    {n : Nat} (h : Codec r w enc valid n) (a : α) : Exact (w a) n :=
  exact_of (h.write a) (h.len a).symm (h.len a).symm

/-- Any writer of a fixed number of bytes reports an error rather than more bytes than asked for; and what
is beyond the reported size is untouched. -/
theorem c09_consequences {w : Writer} {m : Nat} (h : Exact w m) (buf out : Bytes) (k : Nat)
    (hw : w buf = .ok (out, k)) :
    k = m ∧ m ≤ buf.length ∧ out.length = buf.length ∧ out.drop m = buf.drop m := by
  obtain ⟨bs, rfl, h1, h2⟩ := h
  by_cases hb : bs.length ≤ buf.length
  · rw [h1 buf hb] at hw
    simp only [Res.ok.injEq, Prod.mk.injEq] at hw
    obtain ⟨rfl, rfl⟩ := hw
    exact ⟨rfl, hb, by simp; omega, by simp⟩
  · obtain ⟨e, he⟩ := h2 buf (by omega)
    rw [he] at hw; simp at hw

variable [ScrollRule]

/-! ## Elements -/

/-- Elements of fixed size. -/
theorem c09_fixed_size :
    (∀ e, Exact (writeDSSS e) (measureDSSS e)) ∧ (∀ e, Exact (writeIBSS e) (measureIBSS e)) ∧
    (∀ e, Exact (writeBSSLoad e) (measureBSSLoad e)) ∧
    (∀ e, Exact (writeVHTCapabilities e) (measureVHTCapabilities e)) ∧
    (∀ e, Exact (writeVHTOperation e) (measureVHTOperation e)) ∧
    (∀ e, Exact (writeMeshConfiguration e) (measureMeshConfiguration e)) ∧
    (∀ e, Exact (writeSupportedMCSSet e) (measureSupportedMCSSet e)) ∧
    (∀ e, Exact (writeHTCapabilities e) (measureHTCapabilities e)) ∧
    (∀ e, Exact (writeHTOperation e) (measureHTOperation e)) :=
  ⟨fun e => c12_dsss.exact e, fun e => c12_ibss.exact e, fun e => c12_bss_load.exact e,
    fun e => c12_vht_capabilities.exact e, fun e => c12_vht_operation.exact e,
    fun e => c12_mesh_configuration.exact e,
    fun e => exact_of (c13_mcs_set_round_trip e []).1 (by simp [encMCSSet]) (by simp [encMCSSet, measureSupportedMCSSet]),
    fun e => exact_of (c13_write e).1 (c13_write e).2.1.symm (by rw [(c13_write e).2.1]; rfl),
    fun e => exact_of (c14_write_partial e).1 (by simp [encMCSSet]) (by simp [encMCSSet, measureHTOperation])⟩

theorem c09_ssid_partial (e : SSIDLikeElement) (h : slack ≤ e.ssid.bytes.length) :
    Exact (writeSSID e) (measureSSID e) :=
  exact_of (c10_write e).1 (by omega) (c10_write e).2

/-- Supported rates, as made by the checking constructor; extended rates, however made. -/
theorem c09_rates_partial (e : RatesElement) :
    ((∃ l, newSupportedRates l = some e) → Exact (writeSupportedRates e) (measureRates e)) ∧
    Exact (writeExtendedSupportedRates e) (measureRates e) := by
  constructor
  · rintro ⟨l, hl⟩
    have := c11_write_supported l e hl
    exact exact_of this.1 (by simp) (by simp [this.2])
  · have := c11_write_extended e
    exact exact_of this.1 (by simp) (by simp [this.2])

/-- Violation: nine rates made by the other constructor measure nine bytes and are written as eight. -/
theorem c09_rates_wrong : ∃ e : RatesElement, ¬ Exact (writeSupportedRates e) (measureRates e) := by
  refine ⟨⟨List.replicate 9 ⟨2⟩⟩, fun h => ?_⟩
  have h1 := (c11_unchecked ⟨List.replicate 9 ⟨2⟩⟩ (by decide)).1.ok (List.replicate 9 0) (by decide)
  have := (c09_consequences h _ _ _ h1).1
  simp [measureRates] at this

/-- Traffic indication map: without bitmap, or with a non-empty one that is not the result of
`new_static`. -/
theorem c09_tim_partial (e : TIMElement) (hd : ¬ e.dtim_period < e.dtim_count) :
    (e.bitmap = none → ∃ m, measureTIM e = .ok m ∧ Exact (writeTIM e) m) ∧
    (∀ ctl bits bytes, e.bitmap = some ⟨ctl, some bits⟩ → bits.asBytes = .ok bytes → bytes ≠ [] →
      (∀ b n, bits ≠ .static b n) → ∃ m, measureTIM e = .ok m ∧ Exact (writeTIM e) m) := by
  constructor
  · intro h
    obtain ⟨n, _, hn, hw⟩ := (c16_write e [0] (by simp [h])).2 hd
    refine ⟨2, by simp [measureTIM, h], exact_of hw (hn (by simp)) (by simp [timBytes, h])⟩
  · intro ctl bits bytes h hb hne hst
    obtain ⟨n, _, hn, hw⟩ := (c16_write e bytes (by
      intro b bs h1 h2
      rw [h] at h1
      cases h1
      cases h2
      exact hb)).2 hd
    refine ⟨3 + bytes.length, ?_, exact_of hw (hn hne) (by simp [timBytes, h]; omega)⟩
    have : bits.measure = .ok bytes.length := by
      cases bits with
      | slice b => simp only [TIMBits.asBytes, Res.ok.injEq] at hb; subst hb; rfl
      | static b n => exact absurd rfl (hst b n)
      | const b n1 n2 => simp only [TIMBits.measure, hb, Res.map]
    simp only [measureTIM, h, TIMBitmap.measure, this, Res.map]
    congr 1; omega

/-- Violation: a bitmap made by `new_static` measures one byte less than written, and so does a set
traffic indicator without a map. -/
theorem c09_tim_wrong :
    (∃ e m, measureTIM e = .ok m ∧ ¬ Exact (writeTIM e) m ∧ ∃ ctl pvb n2, e.bitmap = some ⟨ctl, some (.static pvb n2)⟩) ∧
    (∃ e m, measureTIM e = .ok m ∧ ¬ Exact (writeTIM e) m ∧ ∃ ctl, e.bitmap = some ⟨ctl, none⟩) := by
  constructor
  · refine ⟨⟨0, 1, some ⟨⟨0⟩, some (.static [1] 0)⟩⟩, 3, rfl, fun h => ?_, _, _, _, rfl⟩
    obtain ⟨n, hle, hn, hw⟩ := (c16_write ⟨0, 1, some ⟨⟨0⟩, some (.static [1] 0)⟩⟩ [1] (by
      intro b bs h1 h2; cases h1; cases h2; rfl)).2 (by decide)
    have hl := hn (by simp)
    have := (c09_consequences h (List.replicate 4 0) _ _ (hw.ok _ (by rw [hl]; simp [timBytes]))).1
    simp [timBytes] at this
  · refine ⟨⟨0, 1, some ⟨⟨1⟩, none⟩⟩, 3, by rfl, fun h => ?_, _, rfl⟩
    obtain ⟨n, hle, hn, hw⟩ := (c16_write ⟨0, 1, some ⟨⟨1⟩, none⟩⟩ [1] (by
      intro b bs h1 h2; cases h1; cases h2)).2 (by decide)
    have hl := hn (by simp)
    have hx : (timBytes ⟨0, 1, some ⟨⟨1⟩, none⟩⟩ [1]).length = 4 := by decide
    have := (c09_consequences h (List.replicate 4 0) _ _ (hw.ok _ (by rw [hl, hx]; simp))).1
    rw [hx] at this
    omega

/-- Traffic indication map: the reported size is right exactly if the map is not the result of `new_static` and a set
traffic indicator has a map.  (`map` is what the map of the element derefs to, and not empty.) -/
theorem c09_tim_exact_partial (e : TIMElement) (hd : ¬ e.dtim_period < e.dtim_count) (map : Bytes) (hne : map ≠ [])
    (hm : ∀ b bits, e.bitmap = some b → b.partial_virtual_bitmap = some bits → bits.asBytes = .ok map) :
    ∃ m, measureTIM e = .ok m ∧ (Exact (writeTIM e) m ↔
      (∀ ctl pvb n2, e.bitmap ≠ some ⟨ctl, some (.static pvb n2)⟩) ∧
      ∀ ctl, e.bitmap = some ⟨ctl, none⟩ → ctl.traffic_indicator = false) := by
  obtain ⟨n, hle, hn, hw⟩ := (c16_write e map hm).2 hd
  have hn := hn hne
  have hneg : ∀ m, m ≠ (timBytes e map).length → ¬ Exact (writeTIM e) m := fun m h1 h2 => by
    have := (c09_consequences h2 (List.replicate n 0) _ _ (hw.ok _ (by simp))).1
    omega
  obtain ⟨c, p, bm⟩ := e
  cases bm with
  | none => exact ⟨2, rfl, iff_of_true (exact_of hw hn rfl) ⟨(by simp), (by simp)⟩⟩
  | some b =>
    obtain ⟨ctl, pvb⟩ := b
    cases pvb with
    | none =>
      cases ht : ctl.traffic_indicator with
      | true =>
        refine ⟨3, by simp [measureTIM, TIMBitmap.measure, TIMBitmap.trafficIndicator, ht, Res.map], iff_of_false (hneg 3 ?_) ?_⟩
        · simp [timBytes, TIMBitmap.trafficIndicator, ht]
        · rintro ⟨-, h⟩
          rw [h ctl rfl] at ht
          cases ht
      | false =>
        refine ⟨2, by simp [measureTIM, TIMBitmap.measure, TIMBitmap.trafficIndicator, ht, Res.map], iff_of_true (exact_of hw hn ?_) ?_⟩
        · simp [timBytes, TIMBitmap.trafficIndicator, ht]
        · exact ⟨(by simp), fun ctl' h => by cases h; exact ht⟩
    | some bits =>
      have hb := hm _ bits rfl rfl
      have hl : (timBytes ⟨c, p, some ⟨ctl, some bits⟩⟩ map).length = 3 + map.length := by simp [timBytes]; omega
      cases bits with
      | slice l =>
        simp only [TIMBits.asBytes, Res.ok.injEq] at hb
        subst hb
        refine ⟨3 + l.length, ?_, iff_of_true (exact_of hw hn hl.symm) ⟨(by simp), (by simp)⟩⟩
        simp only [measureTIM, TIMBitmap.measure, TIMBits.measure, Res.map]
        congr 1; omega
      | const l n1 n2 =>
        refine ⟨3 + map.length, ?_, iff_of_true (exact_of hw hn hl.symm) ⟨(by simp), (by simp)⟩⟩
        simp only [measureTIM, TIMBitmap.measure, TIMBits.measure, hb, Res.map]
        congr 1; omega
      | static l n2 =>
        refine ⟨3 + n2, ?_, iff_of_false (hneg _ ?_) fun h => h.1 _ _ _ rfl⟩
        · simp only [measureTIM, TIMBitmap.measure, TIMBits.measure, Res.map]
          congr 1; omega
        · simp only [TIMBits.asBytes] at hb
          split at hb <;> cases hb
          rw [hl, List.length_take]
          omega

/-- RSN without PMKIDs. -/
theorem c09_rsn_partial (e : RsnElement.OfLists) (hwf : RsnWf e) (hs : RsnSmall e) (he : RsnEndOk e)
    (hm : ∀ l, e.pmkid_list = some l → l = []) : Exact (writeRsnLists e) (measureRsnLists e) :=
  exact_of (c17_write e hwf hs he) rfl (c17_measure_partial e 4 hm)

/-- Violation: with PMKIDs. -/
theorem c09_rsn_wrong (e : RsnElement.OfLists) (hwf : RsnWf e) (hs : RsnSmall e) (he : RsnEndOk e)
    (l : List (Arr 16)) (hm : e.pmkid_list = some l) (hne : l ≠ []) :
    ¬ Exact (writeRsnLists e) (measureRsnLists e) := by
  intro h
  have hk := c17_measure_pmkid e 4 l hm
  have hpos : 0 < l.length := List.length_pos_iff.2 hne
  have := (c09_consequences h (List.replicate (rsnWire 4 e).length 0) _ _
    ((c17_write e hwf hs he).ok _ (by simp))).1
  omega

theorem c09_mesh_peering_partial (e : MeshPeeringManagement) (t : Bytes) (h : HoldsTail e t)
    (hs : slack ≤ t.length) : Exact (writeMeshPeering e) e.measure :=
  exact_of (c19_write e t h).1 (by simp; omega) (by simp [(c19_write e t h).2]; omega)

/-- The vendor specific elements of the library, as wrapped elements. -/
theorem c09_vendor_partial (e : Elem) (pfx p : Bytes) (h : VendorWrites e pfx p 0) :
    Exact e.writeWrapped e.wrappedMeasure := by
  refine ⟨221 :: BitVec.ofNat 8 (4 + p.length) :: (pfx ++ p), ?_, ?_, ?_⟩
  · have hk := h.known
    have : pfx.length = 4 := by
      simp only [vendorPrefixes, List.mem_cons, List.not_mem_nil, or_false] at hk
      rcases hk with rfl | rfl | rfl | rfl | rfl | rfl <;> rfl
    simp [h.size, this]; omega
  · intro buf hb
    rw [h.size] at hb ⊢
    exact h.wire buf (by omega)
  · intro buf hb
    rw [h.size] at hb
    exact h.short buf (by omega)

omit [ScrollRule] in
theorem rawOf_size (e : Elem) (p : Bytes) (h : e.obj.measure = p.length) :
    e.wrappedMeasure = (tlv (rawOf e.id p)).length := by
  obtain ⟨id, o⟩ := e
  simp only at h
  cases id <;> simp [Elem.wrappedMeasure, ElementID.elementHeaderLength, rawOf, tlv, h] <;> omega

/-- Any wrapped element (plain, extended or vendor specific) whose contents measure exactly. -/
theorem c09_wrapped_partial (e : Elem) (h : ExactObj e.obj) (hs : slack ≤ e.obj.measure)
    (hl : e.wrappedMeasure ≤ 257) : Exact e.writeWrapped e.wrappedMeasure := by
  obtain ⟨p, hp, he⟩ := h.emits
  have hz := rawOf_size e p hp.symm
  have h1 := writeWrapped_emits e p _ he (Nat.le_refl _) hp.symm (by
    rw [hz] at hl
    simp only [tlv, List.length_cons] at hl
    omega)
  exact exact_of h1 (by omega) hz

/-- A raw element on its own. -/
theorem c09_raw_element_partial (e : RawElement) (hl : e.slice.length ≤ 255) (hs : slack ≤ e.slice.length) :
    Exact (writeRawElement e) (e.slice.length + 2) :=
  exact_of (writeRawElement_emits e hl) (by simp [tlv]; omega) (by simp [tlv])

/-- The last item of the chain is a typed element. -/
def Spec.EndsTyped : Chain → Prop
  | .last (.typed _) => True
  | .last (.raw _) => False
  | .link _ c => EndsTyped c

theorem chain_measure {c : Chain} {raws : List RawElement} {x : Nat} (h : ChainOf c raws x) :
    (EndsTyped c → c.measure = (raws.flatMap tlv).length) ∧
    (¬ EndsTyped c → c.measure + 2 = (raws.flatMap tlv).length) := by
  induction h with
  | @last i e x h =>
    cases h with
    | raw e hl => simp [EndsTyped, Chain.measure, tlv]
    | typed e p n hw hn hm hl =>
      have := rawOf_size e p hm
      simp only [EndsTyped, Chain.measure, List.flatMap_cons, List.flatMap_nil, List.append_nil, ← this,
        Elem.wrappedMeasure, not_true_eq_false, false_implies, and_true, true_implies]
  | @link i e x y c l h t ih =>
    cases h with
    | raw e hl =>
      simp only [EndsTyped, Chain.measure, List.flatMap_cons, List.length_append]
      have : (tlv e).length = e.slice.length + 2 := by simp [tlv]
      rw [this]
      exact ⟨fun h => by have := ih.1 h; omega, fun h => by have := ih.2 h; omega⟩
    | typed e p n hw hn hm hl =>
      have hz := rawOf_size e p hm
      simp only [EndsTyped, Chain.measure, List.flatMap_cons, List.length_append, ← hz, Elem.wrappedMeasure]
      exact ⟨fun h => by have := ih.1 h; omega, fun h => by have := ih.2 h; omega⟩

/-- A chain ending in a typed element measures what it writes; -/
theorem c09_chain_partial (c : Chain) (raws : List RawElement) (h : ChainOf c raws 0)
    (ht : EndsTyped c) : ExactObj c.obj :=
  exact_of h.emits rfl ((chain_measure h).1 ht)

/-- violation: one ending in a raw element measures two bytes less. -/
theorem c09_chain_wrong (c : Chain) (raws : List RawElement) (x : Nat) (h : ChainOf c raws x)
    (ht : ¬ EndsTyped c) : c.measure + 2 = (raws.flatMap tlv).length ∧ ¬ ExactObj c.obj := by
  have hm := (chain_measure h).2 ht
  refine ⟨hm, fun hx => ?_⟩
  have := (c09_consequences hx (List.replicate ((raws.flatMap tlv).length + x) 0) _ _ (h.emits.ok _ (by simp))).1
  have h2 : c.obj.measure = c.measure := rfl
  omega

/-! ## Frames -/

/-- The bodies made of fixed fields and elements, when the elements measure exactly. -/
theorem c09_bodies_partial :
    (∀ b, ExactObj b.elements → slack ≤ b.elements.measure →
      Exact (writeAssociationRequest b) (measureAssociationRequest b)) ∧
    (∀ b, ExactObj b.elements → slack ≤ b.elements.measure →
      Exact (writeAssociationResponse b) (measureAssociationResponse b)) ∧
    (∀ b, ExactObj b.elements → slack ≤ b.elements.measure →
      Exact (writeAuthentication b) (measureAuthentication b)) ∧
    (∀ b, ExactObj b.elements → slack ≤ b.elements.measure →
      Exact (writeBeaconLike b) (measureBeaconLike b)) ∧
    (∀ b, ExactObj b.elements → slack ≤ b.elements.measure →
      Exact (writeDisassociation b) (measureDisassociation b)) ∧
    (∀ b, ExactObj b.elements → slack ≤ b.elements.measure →
      Exact (writeDeauthentication b) (measureDeauthentication b)) ∧
    (∀ b, ExactObj b.elements → Exact (writeProbeRequest b) (measureProbeRequest b)) ∧
    (∀ b, slack ≤ b.payload.length → Exact (writeRawAction b) (measureRawAction b)) := by
  refine ⟨?_, ?_, ?_, ?_, ?_, ?_, ?_, ?_⟩
  · intro b h hs
    obtain ⟨bs, hb, he⟩ := h.emits
    refine exact_of (c22_association_request.writes b bs _ he) ?_ ?_ <;>
      simp [measureAssociationRequest, hb] <;> omega
  · intro b h hs
    obtain ⟨bs, hb, he⟩ := h.emits
    refine exact_of (c22_association_response.writes b bs _ he) ?_ ?_ <;>
      simp [measureAssociationResponse, hb] <;> omega
  · intro b h hs
    obtain ⟨bs, hb, he⟩ := h.emits
    refine exact_of (c22_authentication.writes b bs _ he) ?_ ?_ <;>
      simp [measureAuthentication, hb] <;> omega
  · intro b h hs
    obtain ⟨bs, hb, he⟩ := h.emits
    refine exact_of (c22_beacon.writes b bs _ he) ?_ ?_ <;>
      simp [measureBeaconLike, hb] <;> omega
  · intro b h hs
    obtain ⟨bs, hb, he⟩ := h.emits
    refine exact_of (c22_disassociation.writes b bs _ he) ?_ ?_ <;>
      simp [measureDisassociation, hb] <;> omega
  · intro b h hs
    obtain ⟨bs, hb, he⟩ := h.emits
    refine exact_of (c22_deauthentication.writes b bs _ he) ?_ ?_ <;>
      simp [measureDeauthentication, hb] <;> omega
  · intro b h
    obtain ⟨bs, hb, he⟩ := h.emits
    exact exact_of (c22_probe_request.writes b bs _ he) (by simp) (by simp [measureProbeRequest, hb])
  · intro b hs
    exact exact_of (c48_raw_write b) (by simp; omega) (by simp [measureRawAction]; omega)

/-- Violation: the mesh peering action bodies and the vendor specific body measure one byte less than
they write, so a buffer of the reported size is too small. -/
theorem c09_bodies_wrong :
    (∀ b, ExactObj b.elements → slack ≤ b.elements.measure →
      ¬ Exact (writeMeshPeeringOpen b) (measureMeshPeeringOpen b)) ∧
    (∀ b, ExactObj b.elements → slack ≤ b.elements.measure →
      ¬ Exact (writeMeshPeeringConfirm b) (measureMeshPeeringConfirm b)) ∧
    (∀ b, ExactObj b.elements → slack ≤ b.elements.measure →
      ¬ Exact (writeMeshPeeringClose b) (measureMeshPeeringClose b)) ∧
    (∀ b, ExactObj b.payload → slack ≤ b.payload.measure →
      ¬ Exact (writeVendorAction b) (measureVendorAction b)) := by
  have no : ∀ {w : Writer} {bs : Bytes} {n m : Nat}, Emits w bs n → m + 1 = bs.length → ¬ Exact w m := by
    intro w bs n m he hm hx
    have := (c09_consequences hx (List.replicate n 0) _ _ (he.ok _ (by simp))).1
    omega
  refine ⟨?_, ?_, ?_, ?_⟩
  · intro b h hs
    obtain ⟨bs, hb, he⟩ := h.emits
    exact no (c22_mesh_peering_open.writes b bs _ he) (by simp [measureMeshPeeringOpen, hb]; omega)
  · intro b h hs
    obtain ⟨bs, hb, he⟩ := h.emits
    exact no (c22_mesh_peering_confirm.writes b bs _ he) (by simp [measureMeshPeeringConfirm, hb]; omega)
  · intro b h hs
    obtain ⟨bs, hb, he⟩ := h.emits
    exact no (c22_mesh_peering_close.writes b bs _ he) (by simp [measureMeshPeeringClose, hb]; omega)
  · intro b h hs
    obtain ⟨bs, hb, he⟩ := h.emits
    exact no (c48_vendor_write b bs _ he) (c48_vendor_measure_wrong b bs hb.symm)

section
variable [Crc32]

/-- A management frame, when the body measures exactly. -/
theorem c09_mgmt_frame_partial (s : ManagementFrameSubtype) (hs : ValidSubtype s) (h : ManagementFrameHeader)
    (w : Writer) (m : Nat) (hw : Exact w m) (hm : slack ≤ m) (fcs : Bool) :
    Exact (writeMgmtFrame s h w fcs) (measureMgmtFrame h m fcs) := by
  obtain ⟨bs, rfl, he⟩ := hw.emits
  refine exact_of (c23_write s hs h w bs _ he fcs) ?_ ?_
  · cases fcs <;> simp [withFcs, mgmtFrameWire] <;> omega
  · rw [measureMgmtFrame, c21_length]
    cases fcs <;> simp [withFcs, mgmtFrameWire] <;> omega

/-- A data frame, when its payload measures exactly. -/
theorem c09_data_frame_partial (f : DataFrame Obj) (hv : ValidData f.header)
    (hp : ∀ o, f.payload = some o → ExactObj o ∧ slack ≤ o.measure) (fcs : Bool) :
    Exact (writeDataFrame f fcs) (measureDataFrame f fcs) := by
  obtain ⟨h, o⟩ := f
  cases o with
  | none =>
    refine exact_of (c49_write ⟨h, none⟩ hv [] 0 ⟨rfl, rfl⟩ fcs) ?_ ?_
    · cases fcs <;> simp [withFcs, dataFrameWire] <;> omega
    · simp only [measureDataFrame, c27_length]
      cases fcs <;> simp [withFcs, dataFrameWire] <;> omega
  | some o =>
    obtain ⟨hx, hs⟩ := hp o rfl
    obtain ⟨bs, hb, he⟩ := hx.emits
    refine exact_of (c49_write ⟨h, some o⟩ hv bs (max bs.length slack) ⟨_, he, rfl⟩ fcs) ?_ ?_
    · have : max bs.length slack = bs.length := by omega
      rw [this]
      cases fcs <;> simp [withFcs, dataFrameWire] <;> omega
    · simp only [measureDataFrame, c27_length, ← hb]
      cases fcs <;> simp [withFcs, dataFrameWire] <;> omega

end

/-- Control frames other than Ack. -/
theorem c09_control_partial (c : ControlFrame) (h : c.getSubtype ≠ .Ack ∨ ∃ s f b, c = .Unknown s f b)
    (hs : slack ≤ c.lengthInBytes) : Exact (writeControlFrame c) c.lengthInBytes := by
  rw [c26_length_partial c h] at hs ⊢
  exact exact_of (c26_write c) (by omega) rfl

/-- Violation: no Ack measures what it writes. -/
theorem c09_ack_wrong (f : FCFFlags) (d : BitVec 16) (ra : Mac) :
    ¬ Exact (writeControlFrame (.Ack f d ra)) (ControlFrame.Ack f d ra).lengthInBytes := by
  intro h
  have hl := c26_ack_length f d ra
  have hsl := slack_le
  have := (c09_consequences h (List.replicate 14 0) _ _ ((c26_write (.Ack f d ra)).ok _ (by simp; omega))).1
  omega

/-- Violation: an A-MSDU whose subframe needs padding: a buffer of the reported size is accepted, and more
bytes than that are reported as written. -/
theorem c09_amsdu_wrong (d s : Mac) (x : Byte) :
    ¬ Exact (writeAmsdu ([⟨d, s, [x]⟩].map toWrite)) (measureAmsdu ([⟨d, s, [x]⟩].map toWrite)) := by
  intro h
  obtain ⟨out, ho, _⟩ := c30_write_beyond d s x (List.replicate 15 0) (by simp)
  have := (c09_consequences h _ _ _ ho).1
  simp [measureAmsdu, measureSubframe, toWrite, bytesObj] at this

/-! ## Security -/

theorem c09_crypto_header (h : CryptoHeader) : Exact (writeCryptoHeader h) (measureCryptoHeader h) :=
  exact_of (c31_write_any h).1 rfl rfl

/-- A protected payload without MIC. -/
theorem c09_crypto_wrapper_partial (c : CryptoWrapper Obj) (h : ExactObj c.payload)
    (hs : slack ≤ c.payload.measure) (hm : c.mic_state = .NotPresent) :
    Exact (writeCryptoWrapper c) (measureCryptoWrapper c) := by
  obtain ⟨bs, hb, he⟩ := h.emits
  have hz := c32_measure c bs hb.symm
  have h0 : c.mic_state.micLength = 0 := by rw [hm]; rfl
  rw [h0] at hz
  refine ⟨cryptoHeaderWire c.crypto_header.packet_number.toNat c.crypto_header.key_id.toNat ++ bs, ?_, ?_, ?_⟩
  · rw [hz]; simp [cryptoHeaderWire]; omega
  · intro buf hbuf
    have := c32_write_partial c bs _ he buf (by omega) (by omega)
    rw [this, hz, h0]
    simp
  · intro buf hbuf
    exact c32_write_short c bs _ he buf (by omega)

/-- Violation: with a MIC, a buffer one byte too small panics. -/
theorem c09_crypto_wrapper_wrong (c : CryptoWrapper Obj) (h : ExactObj c.payload)
    (hs : slack ≤ c.payload.measure) (hm : c.mic_state ≠ .NotPresent) (buf : Bytes)
    (hb : buf.length + 1 = measureCryptoWrapper c) : writeCryptoWrapper c buf = .panic := by
  obtain ⟨bs, hbs, he⟩ := h.emits
  have hz := c32_measure c bs hbs.symm
  have h0 : 8 ≤ c.mic_state.micLength := by
    cases hc : c.mic_state
    · exact absurd hc hm
    · decide
    · decide
  exact c32_write_panics c bs _ he buf (by omega) (by omega)

theorem c09_eapol_partial (f : EapolKeyFrame Obj) (h : ExactObj f.key_data) (hs : slack ≤ f.key_data.measure) :
    Exact (writeEapolKeyFrame f) (measureEapolKeyFrame f) := by
  obtain ⟨bs, hb, he⟩ := h.emits
  have hm := c37_measure f bs hb.symm
  refine exact_of (c37_write f bs _ he) ?_ hm
  rw [← hm]
  simp only [measureEapolKeyFrame, ← hb]
  omega

/-- The data frame around it, with its SNAP header, or without any payload. -/
theorem c09_eapol_data_frame_partial [Crc32] (f : EapolDataFrame Obj) (hv : ValidData f.header)
    (hk : ∀ s, f.payload = some s → ExactObj s.payload.key_data ∧ slack ≤ s.payload.key_data.measure) (fcs : Bool) :
    Exact (writeDataFrame f.obj fcs) (measureDataFrame f.obj fcs) := by
  have hsl := slack_le
  refine c09_data_frame_partial f.obj hv ?_ fcs
  intro o ho
  obtain ⟨h, p⟩ := f
  cases p with
  | none => cases ho
  | some s =>
    cases ho
    obtain ⟨hx, hs⟩ := hk s rfl
    have he := c09_eapol_partial s.payload hx hs
    obtain ⟨bs, hb, hem⟩ := he.emits
    have hm : (83 : Nat) ≤ measureEapolKeyFrame s.payload := by unfold measureEapolKeyFrame; omega
    refine ⟨exact_of (n := 8 + max bs.length slack) (bs := snapWire s.oui s.ether_type bs) ?_ ?_ ?_, ?_⟩
    · apply Emits.cast
      · apply WEmits.run
        wr_steps
        exact WEmits.gwrite hem
      · simp [snapWire]
      · omega
    · simp [snapWire]; omega
    · simp only [snapObj, eapolObj, ← hb]; simp [snapWire]; omega
    · simp only [snapObj, eapolObj]; omega

/-- Concrete case: key data of three bytes, 26 bytes of header and a checksum. -/
example (s : Bool) : letI : ScrollRule := ⟨s⟩
    measureDataFrame (EapolDataFrame.obj ⟨{
      subtype := .QoSData, fcf_flags := ⟨2⟩, duration := 0, address_1 := Arr.zero 6, address_2 := Arr.zero 6,
      address_3 := Arr.zero 6, sequence_control := ⟨0⟩, address_4 := none, qos := some (Arr.zero 2),
      ht_control := none }, some ⟨Arr.zero 3, 0x888e, {
      key_information := ⟨0⟩, key_length := 0, key_replay_counter := 1, key_nonce := Arr.zero 32, key_iv := 0,
      key_rsc := 0, key_mic := List.replicate 16 0, key_data := bytesObj [1, 2, 3] }⟩⟩) true = 140 := by
  cases s <;> decide +kernel

/-! ## Strict offsets -/

omit [ScrollRule] in
/-- Bytes as such. -/
theorem c09_bytes (bs : Bytes) : ExactObj (bytesObj bs) := exact_of (Emits.bytes bs) rfl rfl

/-- Violation with scroll 0.12: a hidden SSID measures nothing, and cannot be written into nothing. -/
theorem c09_strict_spare_byte (h : slack = 1) (s : Str) (hs : s.bytes = []) :
    measureSSID ⟨s⟩ = 0 ∧ ∃ e, writeSSID ⟨s⟩ [] = .err e := by
  have := c10_write ⟨s⟩
  simp only [hs, h] at this
  exact ⟨this.2, this.1.err [] (by simp)⟩

/-- Concrete case: a beacon body holding two SSID bytes as a raw element list, into exactly 16 bytes and
into 15. -/
example (s : Bool) : letI : ScrollRule := ⟨s⟩
    let b : BeaconLikeBody Obj := ⟨1, 100, ⟨0⟩, bytesObj [0, 2, 65, 66]⟩
    measureBeaconLike b = 16 ∧ (writeBeaconLike b (List.replicate 16 9)).isOk = true ∧
    (writeBeaconLike b (List.replicate 15 9)).isErr = true := by
  cases s <;> decide +kernel

end Verif
