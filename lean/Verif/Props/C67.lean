import Verif.Props.C06
import Verif.Props.C12
import Verif.Props.C17
import Verif.Props.C19
import Verif.Props.C20
import Verif.Props.C23
import Verif.Props.C26
import Verif.Props.C49
import Verif.Props.C37
import Verif.Props.C48
/-!
# C67: exactly which values survive being written and read

The round trips of C06, C12, C19 to C23, C26, C27, C37, C48 and C49 have side conditions.  Here they are
shown to be necessary: a value that does not meet them is written, but reading does not give it back.  For RSN elements this is `c17_round_trip_exact`.
-/
namespace Verif

open Spec

variable [ScrollRule]

omit [ScrollRule] in
/-- Fixed-size elements: reading what was written, whatever follows, gives the value back exactly if it
meets the condition of its `Codec`. -/
theorem c67_fixed_size {α : Type} {r : Reader α} {w : α → Writer} {enc : α → Bytes} {valid : α → Prop}
    {n : Nat} (h : Codec r w enc valid n) (a : α) (rest : Bytes) :
    r (enc a ++ rest) = .ok (a, n) ↔ valid a := by
  constructor
  · intro hr
    obtain ⟨a', rest', hv, e⟩ := h.onto (enc a ++ rest) (by simp [h.len])
    rw [e, h.read a' rest' hv] at hr
    cases hr
    exact hv
  · exact h.read a rest

/-- Bodies of management frames: the body comes back exactly if its fixed fields are ones the parser can
return and, under the strict rule, there are elements. -/
theorem c67_body {β : Type → Type} {read : Reader (β Bytes)} {write : β Obj → Writer}
    {get : (ε : Type) → β ε → ε} {set : (ε δ : Type) → β ε → δ → β δ}
    {fixed : (ε : Type) → β ε → Bytes} {valid : β Bytes → Prop} {n : Nat} {need : Nat → Nat}
    {same : Bytes → Bytes → Prop} (h : BodyOf read write get set fixed valid n need same)
    (b : β Obj) (e : Bytes) (m : Nat) (he : Emits (get _ b).write e m) (buf : Bytes)
    (hb : need m ≤ buf.length) :
    ∃ out, write b buf = .ok (out, n + e.length) ∧
      (read (out.take (n + e.length)) = .ok (set _ _ b e, n + e.length) ↔
        valid (set _ _ b e) ∧ slack ≤ e.length) := by
  have hw := (h.writes b e m he).ok buf hb
  have hf : (fixed _ b).length = n := by rw [← h.fixed_set b e]; exact h.size _
  have hl : (fixed _ b ++ e).length = n + e.length := by rw [List.length_append, hf]
  rw [hl] at hw
  refine ⟨_, hw, ?_⟩
  rw [← hl, List.take_left, hl]
  constructor
  · intro hr
    obtain ⟨f, -, -, -, -, hv⟩ := h.parse _ _ _ hr
    refine ⟨hv, ?_⟩
    apply Nat.le_of_not_lt
    intro hlt
    obtain ⟨x, hx⟩ := h.short (fixed _ b ++ e) (by rw [List.length_append, hf]; omega)
    rw [hx] at hr
    cases hr
  · rintro ⟨hv, hs⟩
    have hr := h.reads (set _ _ b e) hv (by rw [h.get_set]; exact hs)
    rwa [h.get_set, h.fixed_set] at hr

/-- Headers of management frames: exactly if the order flag says whether there is an HT control field. -/
theorem c67_mgmt_header (h : ManagementFrameHeader) (rest : Bytes) :
    readMgmtHeader h.fcf_flags (mgmtHeaderWire h ++ rest) = .ok (h, (mgmtHeaderWire h).length) ↔
      HtConsistent h :=
  ⟨fun hr => (c21_parse _ _ _ _ hr).choose_spec.2.2.2, fun hc => c21_round_trip_partial h hc rest⟩

omit [ScrollRule] in
private theorem withFcs_inj [Crc32] {fcs : Bool} {a b : Bytes} (h : withFcs fcs a = withFcs fcs b) :
    a = b := by
  cases fcs
  · exact h
  · simp only [withFcs, if_true] at h
    exact (List.append_inj' h (by simp)).1

/-- Management frames: exactly if header and body meet their conditions. -/
theorem c67_mgmt_frame [Crc32] {β : Type → Type} {read : Reader (β Bytes)} {write : β Obj → Writer}
    {get : (ε : Type) → β ε → ε} {set : (ε δ : Type) → β ε → δ → β δ}
    {fixed : (ε : Type) → β ε → Bytes} {valid : β Bytes → Prop} {n : Nat} {need : Nat → Nat}
    {same : Bytes → Bytes → Prop} (hB : BodyOf read write get set fixed valid n need same)
    (s : ManagementFrameSubtype) (hs : ValidSubtype s) (h : ManagementFrameHeader)
    (b : β Obj) (e : Bytes) (m : Nat) (he : Emits (get _ b).write e m) (fcs : Bool) :
    ∃ size, ∀ buf : Bytes, size ≤ buf.length →
      ∃ out k, writeMgmtFrame s h (write b) fcs buf = .ok (out, k) ∧
        (readMgmtFrame read fcs (out.take k) =
            .ok ((h, set _ _ b e), h.lengthInBytes + n + e.length) ↔
          HtConsistent h ∧ valid (set _ _ b e) ∧ slack ≤ e.length) := by
  have hw := c23_write s hs h (write b) _ _ (hB.writes b e m he) fcs
  have hf : (fixed _ b).length = n := by rw [← hB.fixed_set b e]; exact hB.size _
  refine ⟨_, fun buf hb => ⟨_, _, hw.ok buf hb, ?_⟩⟩
  rw [List.take_left]
  have hbr : Bounded read := by
    intro inp a k hr
    obtain ⟨f, -, -, -, hk, -⟩ := hB.parse _ _ _ hr
    omega
  constructor
  · intro hr
    obtain ⟨b0, body, k, hi, -, hc, hbody, -⟩ := c23_parse read hbr fcs _ _ _ _ hr
    have hi := withFcs_inj hi
    simp only [mgmtFrameWire, frameStart, List.cons_append, List.nil_append, List.cons.injEq,
      List.append_cancel_left_eq, true_and] at hi
    obtain ⟨-, rfl⟩ := hi
    obtain ⟨f, -, -, -, -, hv⟩ := hB.parse _ _ _ hbody
    refine ⟨hc, hv, ?_⟩
    apply Nat.le_of_not_lt
    intro hlt
    obtain ⟨x, hx⟩ := hB.short (fixed _ b ++ e) (by rw [List.length_append, hf]; omega)
    rw [hx] at hbody
    cases hbody
  · rintro ⟨hc, hv, hl⟩
    have hr := hB.reads (set _ _ b e) hv (by rw [hB.get_set]; exact hl)
    rw [hB.get_set, hB.fixed_set] at hr
    rw [c23_read s hs h hc read _ _ _ hr (by rw [List.length_append]; omega) fcs, c21_length]
    simp only [Res.ok.injEq, Prod.mk.injEq, true_and]
    omega

/-- Headers of data frames: exactly if the subtype is a proper one and the optional fields are there when
the flags and the subtype say so. -/
theorem c67_data_header (h : DataFrameHeader) (rest : Bytes) :
    readDataHeader (frameStart (.Data h.subtype) h.fcf_flags ++ (dataHeaderWire h ++ rest)) =
      .ok (h, 2 + (dataHeaderWire h).length) ↔ ValidData h ∧ HeaderConsistent h := by
  constructor
  · intro hr
    obtain ⟨b0, r, -, -, -, -, hc, hv⟩ := c27_parse _ _ _ hr
    exact ⟨hv, hc⟩
  · exact fun hh => c27_round_trip h hh.1 hh.2 rest

/-- Data frames: exactly if, in addition, the payload is there when the subtype carries one. -/
theorem c67_data_frame [Crc32] (f : DataFrame Bytes) (fcs : Bool) :
    readDataFrame fcs (withFcs fcs (dataFrameWire f.header (f.payload.getD []))) =
      .ok (f, 2 + (dataHeaderWire f.header).length) ↔
    ValidData f.header ∧ HeaderConsistent f.header ∧ PayloadConsistent f := by
  constructor
  · intro hr
    obtain ⟨b0, r, -, -, -, hp, hc, hv, -⟩ := c49_parse fcs _ _ _ hr
    refine ⟨hv, hc, ?_⟩
    rw [PayloadConsistent, hp]
    split <;> simp_all
  · exact fun hh => c49_read f hh.1 hh.2.1 hh.2.2 fcs

/-- Control frames: exactly if `Unknown` does not stand for a subtype that has a variant of its own. -/
theorem c67_control (c : ControlFrame) :
    readControlFrame c.getSubtype c.getFcfFlags (controlWire c) = .ok (c, (controlWire c).length) ↔
      ProperControl c := by
  constructor
  · intro hr
    obtain ⟨_, -, -, -, -, hp⟩ := c26_parse _ _ _ _ _ hr
    exact hp
  · exact c26_round_trip c

/-- Action bodies kept as bytes: exactly if the category is not `Unknown` with the number of a named one. -/
theorem c67_raw_action (b : RawActionBody) :
    readRawAction (b.category_code.intoBits :: b.payload) = .ok (b, 1) ↔ b.category_code.Canonical := by
  constructor
  · intro hr
    have h2 := c48_raw_round_trip ⟨.fromBits b.category_code.intoBits, b.payload⟩
      (CategoryCode.canonical_fromBits _)
    rw [CategoryCode.intoBits_fromBits] at h2
    rw [h2] at hr
    have : CategoryCode.fromBits b.category_code.intoBits = b.category_code := by
      have h3 := congrArg (fun r => match r with | .ok (b, _) => b.category_code | _ => b.category_code) hr
      exact h3
    rw [← this]
    exact CategoryCode.canonical_fromBits _
  · exact c48_raw_round_trip b

/-- Mesh peering management: exactly if the protocol is not `Unknown` with the number of a named one. -/
theorem c67_mesh_peering (e : MeshPeeringManagement) (t : Bytes) (h : HoldsTail e t) (buf : Bytes)
    (hb : 4 + max t.length slack ≤ buf.length) :
    ∃ out, writeMeshPeering e buf = .ok (out, e.measure) ∧
      (readMeshPeering (out.take e.measure) = .ok (e, 4) ↔
        e.mesh_peering_protocol_identifier.Canonical) := by
  obtain ⟨hw, hm⟩ := c19_write e t h
  have hlen : (toLE e.mesh_peering_protocol_identifier.intoBits ++ toLE e.local_link_id ++ t).length =
      e.measure := by rw [hm]; simp; omega
  have hw := hw.ok buf hb
  rw [hlen] at hw
  refine ⟨_, hw, ?_⟩
  rw [← hlen, List.take_left]
  constructor
  · intro hr
    obtain ⟨e', he, hp, -, -⟩ := c19_read e.mesh_peering_protocol_identifier.intoBits e.local_link_id t h.1
    rw [he] at hr
    cases hr
    rw [hp]
    exact MeshPeeringProtocolIdentifier.canonical_fromBits _
  · intro hc
    obtain ⟨out, ho, hr⟩ := c19_round_trip e t h hc buf hb
    rw [hw] at ho
    cases ho
    rwa [← hlen, List.take_left] at hr

/-- EAPOL key frames: exactly if the MIC has the length of the AKM, the length field can hold the size of the
body and, under the strict rule, there is key data. -/
theorem c67_eapol_key (akm : IEEE80211AkmType) (f : EapolKeyFrame Bytes) (rest : Bytes) (buf : Bytes)
    (hb : 83 + f.key_mic.length + max f.key_data.length slack ≤ buf.length) :
    ∃ out, writeEapolKeyFrame { f with key_data := bytesObj f.key_data } buf =
      .ok (out ++ buf.drop out.length, out.length) ∧
      (readEapolKeyFrame akm (out ++ rest) = .ok (f, out.length) ↔
        akm.keyMicLen = some f.key_mic.length ∧ 79 + f.key_mic.length + f.key_data.length < 65536 ∧
          slack ≤ f.key_data.length) := by
  have hw := (c37_write { f with key_data := bytesObj f.key_data } f.key_data _ (Emits.bytes _)).ok buf hb
  refine ⟨_, hw, ?_⟩
  constructor
  · intro hr
    obtain ⟨v, L, res, extra, rest', ha, hs, hL, -, hi⟩ := c37_parse akm _ _ _ hr
    simp only [eapolWire, List.cons_append, List.append_assoc, List.cons.injEq, true_and] at hi
    have h2 := congrArg (List.take 2) hi.2
    rw [List.take_append_of_le_length (by simp), List.take_append_of_le_length (by simp),
      List.take_of_length_le (by simp), List.take_of_length_le (by simp)] at h2
    have h3 : BitVec.ofNat 16 (79 + f.key_mic.length + f.key_data.length) = L := by
      have := congrArg (fromBE 16) h2
      rwa [fromBE_toBE rfl, fromBE_toBE rfl] at this
    rw [← h3, BitVec.toNat_ofNat] at hL
    have := Nat.mod_le (79 + f.key_mic.length + f.key_data.length) (2 ^ 16)
    have := Nat.mod_lt (79 + f.key_mic.length + f.key_data.length) (show 2 ^ 16 > 0 by decide)
    exact ⟨ha, by omega, by omega⟩
  · rintro ⟨ha, hl, hs⟩
    obtain ⟨out, ho, hr⟩ := c37_round_trip_partial akm f rest ha hl hs buf (by omega)
    rw [hw] at ho
    have hlen : (eapolWire 2 { f with key_data := bytesObj f.key_data } (Arr.zero 8).val f.key_data).length =
        out.length := by
      have := congrArg (fun r => match r with | .ok (_, n) => n | _ => 0) ho
      exact this
    have : eapolWire 2 { f with key_data := bytesObj f.key_data } (Arr.zero 8).val f.key_data = out := by
      have h1 := congrArg (fun r => match r with | .ok (o, _) => o | _ => []) ho
      exact (List.append_inj h1 hlen).1
    rw [this]
    exact hr

private theorem empty_last (hs : slack = 1) (t : Byte) (init : List RawElement)
    (hall : ∀ e ∈ init, e.slice.length ≤ 255) : ElementsOf (init.flatMap tlv ++ [t, 0]) init := by
  induction init with
  | nil => exact .stop (.strict t 0 hs)
  | cons e init ih =>
    rw [List.flatMap_cons, List.append_assoc]
    refine .elem e (hall e (by simp)) (not_noElement (hall e (by simp)) ?_)
      (ih fun e' he' => hall e' (List.mem_cons_of_mem _ he'))
    simp; omega

/-- Sequences of elements: iterating gives all of them exactly if, under the strict rule, the last one is not
empty. -/
theorem c67_elements (raws : List RawElement) (hall : ∀ e ∈ raws, e.slice.length ≤ 255) :
    Yields readRawElement (.new (raws.flatMap tlv)) raws ↔
      ∀ e, raws.getLast? = some e → slack ≤ e.slice.length := by
  constructor
  · intro hy e he
    by_cases h0 : slack ≤ e.slice.length
    · exact h0
    have hsl := slack_le
    obtain ⟨init, rfl⟩ : ∃ init, raws = init ++ [e] := by
      rw [List.getLast?_eq_some_iff] at he
      exact he
    have h1 : e.slice = [] := List.length_eq_zero_iff.1 (by omega)
    have h2 := empty_last (by omega) e.tlv_type init (fun e' he' => hall e' (by simp [he']))
    have h3 : (init ++ [e]).flatMap tlv = init.flatMap tlv ++ [e.tlv_type, 0] := by
      simp [tlv, h1]
    rw [h3] at hy
    have := congrArg List.length (hy.unique h2.yields)
    simp at this
  · intro hs
    exact (c06_iterate raws hall hs raws).2 rfl

/-- OWE transition mode: exactly if the length of the SSID fits its byte and, under the strict rule, something
follows it. -/
theorem c67_owe (e : OWETransitionModeElement) :
    readOWE (oweWire e) = .ok (e, (oweWire e).length) ↔
      e.ssid.bytes.length ≤ 255 ∧ (e.band_and_channel_info = none → slack ≤ e.ssid.bytes.length) := by
  constructor
  · intro hr
    obtain ⟨rest, -, -, hl, -⟩ := c20_owe_parse _ _ _ hr
    refine ⟨hl, fun hn => ?_⟩
    by_cases h0 : slack ≤ e.ssid.bytes.length
    · exact h0
    have hsl := slack_le
    obtain ⟨m, ⟨b, hb⟩, info⟩ := e
    have h1 : b = [] := List.length_eq_zero_iff.1 (by simp at h0; omega)
    subst h1
    simp only at hn
    subst hn
    obtain ⟨x, hx⟩ := c20_owe_hidden_strict m (by simp at h0; omega)
    rw [hx] at hr
    cases hr
  · rintro ⟨h1, h2⟩
    exact (c20_owe_read_partial e h1 h2).read

/-! ## Concrete cases -/

/-- A header with an HT control field comes back with the order flag, and does not without it. -/
example (d : ManagementFrameHeader) (ht : Arr 4) :
    let on : ManagementFrameHeader := { d with fcf_flags := ⟨0x80⟩, ht_control := some ht }
    let off : ManagementFrameHeader := { d with fcf_flags := ⟨0⟩, ht_control := some ht }
    readMgmtHeader on.fcf_flags (mgmtHeaderWire on ++ [1, 2]) = .ok (on, (mgmtHeaderWire on).length) ∧
      readMgmtHeader off.fcf_flags (mgmtHeaderWire off ++ [1, 2]) ≠ .ok (off, (mgmtHeaderWire off).length) := by
  refine ⟨(c67_mgmt_header _ _).2 ?_, fun h => ?_⟩
  · show true = (⟨0x80⟩ : FCFFlags).order
    decide
  · have : true = (⟨0⟩ : FCFFlags).order := (c67_mgmt_header _ _).1 h
    revert this
    decide

/-- A channel width that is `Unknown` with the number of a named one does not come back, another one does. -/
example (rest : Bytes) :
    let e (w : ChannelWidth) : VHTOperationElement := ⟨w, 1, 2, ⟨3⟩⟩
    readVHTOperation ([0xab, 1, 2] ++ toLE (3 : BitVec 16) ++ rest) = .ok (e (.Unknown 0xab), 5) ∧
      readVHTOperation ([1, 1, 2] ++ toLE (3 : BitVec 16) ++ rest) ≠ .ok (e (.Unknown 1), 5) := by
  intro e
  refine ⟨(c67_fixed_size c12_vht_operation (e (.Unknown 0xab)) rest).2 ?_, fun h => ?_⟩
  · exact (ChannelWidth.canonical_fromBits 0xab)
  · have := ChannelWidth.fromBits_intoBits _ ((c67_fixed_size c12_vht_operation (e (.Unknown 1)) rest).1 h)
    revert this
    decide

/-- Two elements, the last one empty: both are found only under the lax rule. -/
example (s : Bool) :
    letI : ScrollRule := ⟨s⟩
    Yields readRawElement (.new [1, 1, 9, 3, 0]) [⟨1, [9]⟩, ⟨3, []⟩] ↔ s = false := by
  letI : ScrollRule := ⟨s⟩
  have := c67_elements [⟨1, [9]⟩, ⟨3, []⟩] (by simp)
  rw [show [1, 1, 9, 3, 0] = [⟨1, [9]⟩, ⟨3, []⟩].flatMap tlv from rfl, this]
  cases s <;> simp [slack]

end Verif
