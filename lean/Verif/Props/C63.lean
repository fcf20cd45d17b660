import Verif.Props.C20
import Verif.Props.C35
import Verif.Props.C36
import Verif.Props.C54
import Verif.Props.C60
import Verif.Lemmas.Safety
/-!
# C63: key data in a protected handshake message reaches the other side

Deriving the keys on both sides (C34, C35), partitioning them (C36), writing a chain of elements as key data
(C06), wrapping it and inserting the MIC (C39, C60), and looking the elements up in the padded key data that the
receiver gets.
-/
namespace Verif

namespace Spec

/-- An element without contents and with the number of the padding byte 0xdd or of the zeros after it. -/
def Padding (e : RawElement) : Prop := e = ⟨0xdd, []⟩ ∨ e = ⟨0, []⟩

/-- Element IDs which no padding has: not the SSID's, not that of all vendor elements. -/
def NotPadding (id : ElementID) : Prop := ∀ e, Padding e → ¬ HasId e id

end Spec

open Spec

variable [ScrollRule]

private theorem elementsOf_append (raws : List RawElement) (hall : ∀ e ∈ raws, e.slice.length ≤ 255)
    {rest : Bytes} {pad : List RawElement} (hr : 0 < rest.length) (h : ElementsOf rest pad) :
    ElementsOf (raws.flatMap tlv ++ rest) (raws ++ pad) := by
  have hs := slack_le
  induction raws with
  | nil => exact h
  | cons e raws ih =>
    rw [List.flatMap_cons, List.append_assoc, List.cons_append]
    exact .elem e (hall e (by simp)) (not_noElement (hall e (by simp)) (by simp; omega))
      (ih (fun e' he' => hall e' (List.mem_cons_of_mem _ he')))

private theorem elementsOf_zeros (k : Nat) :
    ∃ pad, ElementsOf (List.replicate k 0) pad ∧ ∀ e ∈ pad, Padding e := by
  induction k using Nat.strongRecOn with
  | ind k ih =>
    match k with
    | 0 => exact ⟨[], .stop (.short _ (by simp)), by simp⟩
    | 1 => exact ⟨[], .stop (.short _ (by simp)), by simp⟩
    | k + 2 =>
      by_cases hn : NoElement (tlv ⟨0, []⟩ ++ List.replicate k 0)
      · exact ⟨[], .stop hn, by simp⟩
      · obtain ⟨pad, h1, h2⟩ := ih k (by omega)
        refine ⟨_, .elem ⟨0, []⟩ (by simp) hn h1, ?_⟩
        intro e he
        rcases List.mem_cons.1 he with rfl | he
        · exact .inr rfl
        · exact h2 e he

private theorem elementsOf_dd (k : Nat) :
    ∃ pad, ElementsOf (0xdd :: List.replicate k 0) pad ∧ ∀ e ∈ pad, Padding e := by
  cases k with
  | zero => exact ⟨[], .stop (.short _ (by simp)), by simp⟩
  | succ k =>
    by_cases hn : NoElement (tlv ⟨0xdd, []⟩ ++ List.replicate k 0)
    · exact ⟨[], .stop hn, by simp⟩
    · obtain ⟨pad, h1, h2⟩ := elementsOf_zeros k
      refine ⟨_, .elem ⟨0xdd, []⟩ (by simp) hn h1, ?_⟩
      intro e he
      rcases List.mem_cons.1 he with rfl | he
      · exact .inl rfl
      · exact h2 e he

/-- The elements of padded key data: those that were written, in order, then some without contents. -/
theorem c63_padded (raws : List RawElement) (hall : ∀ e ∈ raws, e.slice.length ≤ 255)
    (hs : ∀ e, raws.getLast? = some e → slack ≤ e.slice.length) :
    ∃ pad, ElementsOf (padKeyData (raws.flatMap tlv)) (raws ++ pad) ∧ ∀ e ∈ pad, Padding e := by
  unfold padKeyData
  dsimp only
  split
  · exact ⟨[], by simpa using elementsOf_flatMap raws hall hs, by simp⟩
  · obtain ⟨pad, h1, h2⟩ := elementsOf_dd
      (max 16 (8 * (((raws.flatMap tlv).length + 7) / 8)) - (raws.flatMap tlv).length - 1)
    exact ⟨pad, elementsOf_append raws hall (by simp) h1, h2⟩

omit [ScrollRule] in
/-- Which IDs those are. -/
theorem c63_not_padding (id : ElementID) :
    NotPadding id ↔ id ≠ .Id 0 ∧ id ≠ .Id 0xdd ∧ id ≠ .VendorSpecific [] := by
  constructor
  · intro h
    refine ⟨?_, ?_, ?_⟩
    · rintro rfl; exact h ⟨0, []⟩ (.inr rfl) rfl
    · rintro rfl; exact h ⟨0xdd, []⟩ (.inl rfl) rfl
    · rintro rfl; exact h ⟨0xdd, []⟩ (.inl rfl) ⟨rfl, [], rfl⟩
  · rintro ⟨h1, h2, h3⟩ e (rfl | rfl) hid
    · cases id with
      | Id i => cases hid; exact h2 rfl
      | ExtId x => exact absurd hid.1 (by decide)
      | VendorSpecific pfx =>
        obtain ⟨_, p, hp⟩ := hid
        cases pfx with
        | nil => exact h3 rfl
        | cons a l => cases hp
    · cases id with
      | Id i => cases hid; exact h1 rfl
      | ExtId x => exact absurd hid.1 (by decide)
      | VendorSpecific pfx => exact absurd hid.1 (by decide)

/-- Looking for an element in the padded key data gives what it gives in the key data. -/
theorem c63_lookup {α : Type} (raws : List RawElement) (hall : ∀ e ∈ raws, e.slice.length ≤ 255)
    (hs : ∀ e, raws.getLast? = some e → slack ≤ e.slice.length) (k : ElementKind α) (hk : NotPadding k.id)
    (hp : ∀ p, k.read p ≠ .panic) :
    getFirstElement (padKeyData (raws.flatMap tlv)) k = getFirstElement (raws.flatMap tlv) k := by
  obtain ⟨pad, h1, h2⟩ := c63_padded raws hall hs
  have h0 := elementsOf_flatMap raws hall hs
  have hv := ((c63_not_padding k.id).1 hk).2.2
  have l1 := h1.length_le
  have l0 := h0.length_le
  rw [getFirstElement, findMap_of_yields h1.yields _ (by omega), findRes_ok (matchTyped_eq k hv hp),
    getFirstElement, findMap_of_yields h0.yields _ (by omega), findRes_ok (matchTyped_eq k hv hp),
    List.filterMap_append]
  have hz : pad.filterMap (fun raw => (contents k.id raw).bind (parsed k)) = [] := by
    rw [List.filterMap_eq_nil_iff]
    intro e he
    cases hc : contents k.id e with
    | none => rfl
    | some p =>
      refine absurd ?_ (hk e (h2 e he))
      rw [← contents_isSome, hc]; rfl
  rw [hz, List.append_nil]

private theorem chainOf_ne {c : Chain} {raws : List RawElement} {x : Nat} (h : ChainOf c raws x) :
    2 ≤ (raws.flatMap tlv).length ∧ x ≤ slack := by
  induction h with
  | last h => exact ⟨by simp [tlv], h.extra_le⟩
  | link h t ih => exact ⟨by simp [tlv], ih.2⟩

/-- A message whose key data is a chain of elements, encrypted, with or without a MIC, sent under any two keys that
both sides share.  The frame is written: header, SNAP header and key frame with the wrapped key data and, if flagged,
the MIC; it is accepted by the other side, with or without an FCS, all fields as they were; and looking for any
element in the key data gives what it gives in the chain that was sent. -/
theorem c63_protected_partial [Crc32] [HmacSha1] (kck kek : Arr 16) (akm : IEEE80211AkmType)
    (hmic : akm.keyMicLen = some 16)
    (h : DataFrameHeader) (hv : ValidData h) (hc : HeaderConsistent h) (oui : Arr 3)
    (f : EapolKeyFrame Chain) (h0 : f.key_mic = List.replicate 16 0)
    (h2 : f.key_information.encrypted_key_data = true)
    (raws : List RawElement) (x : Nat) (hch : ChainOf f.key_data raws x)
    (hs : ∀ e, raws.getLast? = some e → slack ≤ e.slice.length)
    (buf : Bytes) (temp : Nat) (ht : (raws.flatMap tlv).length + 24 ≤ temp)
    (hl : (raws.flatMap tlv).length + 119 < 65536)
    (hb : h.lengthInBytes + (raws.flatMap tlv).length + 131 ≤ buf.length) :
    letI := realKw
    ∃ out mic kd : Bytes,
      serializeEapolDataFrame (some kck) (some kek)
        ⟨h, some ⟨oui, 0x888e, { f with key_data := ⟨f.key_data.write, f.key_data.measure⟩ }⟩⟩ buf temp =
          .ok (out ++ buf.drop out.length, out.length) ∧
      wireKeyData (some kek) true (raws.flatMap tlv) = some kd ∧
      wireMic (some kck) f.key_information.key_mic f kd = some mic ∧
      out = eapolPrefix h oui 0x888e ++ eapolWire 2 { f with key_mic := mic } (Arr.zero 8).val kd ∧
      ∃ data : Bytes,
        (∀ (fcs : Arr 4) (with_fcs : Bool),
          deserializeEapolDataFrame (some kck) (some kek) (out ++ if with_fcs then fcs.val else []) temp akm
            with_fcs = .ok { f with key_mic := mic, key_data := data }) ∧
        ∀ {α : Type} (k : ElementKind α), NotPadding k.id → (∀ p, k.read p ≠ .panic) →
          getFirstElement data k = getFirstElement (raws.flatMap tlv) k := by
  letI := realKw
  haveI := c60_lawful
  have hsl := slack_le
  obtain ⟨hne, hx⟩ := chainOf_ne hch
  have hfl : f.key_mic.length = 16 := by rw [h0]; simp
  obtain ⟨out, mic, _, ⟨kd, hkd, hm, ho⟩, _, hd⟩ := c39_round_trip_partial (some kck)
    (some kek) h hv hc oui { f with key_data := raws.flatMap tlv } akm (by rw [hmic, hfl])
    (fun _ => ⟨h0, rfl⟩) (fun _ => ⟨fun hz => by
      have hz : raws.flatMap tlv = [] := hz
      rw [hz] at hne; simp at hne, rfl⟩) (by dsimp only; omega)
    buf temp ht (by dsimp only; omega) (by dsimp only; omega)
  have hkl : kd.length ≤ (raws.flatMap tlv).length + 24 := by
    dsimp only at hkd
    unfold wireKeyData at hkd
    split at hkd
    · simp only [Option.map_some, Option.some.injEq] at hkd
      have := padKeyData_length (raws.flatMap tlv)
      rw [← hkd, wrap_padKeyData_length]; omega
    · cases hkd; omega
  obtain ⟨out', ho', hser⟩ := c39_serialise (some kck) (some kek) h
    ⟨oui, 0x888e, { f with key_data := ⟨f.key_data.write, f.key_data.measure⟩ }⟩ hv (raws.flatMap tlv) _
    hch.emits kd mic hkd hm buf temp (by omega) (by dsimp only; omega) (by dsimp only; omega)
  have : out' = out := by rw [ho', ho]; rfl
  subst this
  refine ⟨out', mic, kd, hser, ?_, hm, ho, padKeyData (raws.flatMap tlv), ?_, ?_⟩
  · rw [← h2]; exact hkd
  · intro fcs b
    rw [hd fcs b]
    simp only [h2, if_true]
  · intro α k hk hr
    exact c63_lookup raws hch.len_le hs k hk hr

/-- A handshake message whose key data is a chain of elements, encrypted, with or without a MIC.  The authenticator
derives the PTK from its point of view and the supplicant from its own; they get the same three keys.  The
frame is written; it is accepted by the other side, with or without an FCS, all fields as they were; and looking
for any element in the key data gives what it gives in the chain that was sent.  (Excepted are the IDs of the
padding, see `c63_ssid_wrong`.) -/
theorem c63_message_partial [Crc32] [HmacSha1] (pmk : Bytes) (aa spa : Mac) (an sn : Arr 32) (akm : IEEE80211AkmType)
    (cipher : IEEE80211CipherSuiteSelector) (n : Nat) (hn : ptkLen akm cipher = some n)
    (hkck : akm.kckLen = some 16) (hkek : akm.kekLen = some 16) (hmic : akm.keyMicLen = some 16)
    (h : DataFrameHeader) (hv : ValidData h) (hc : HeaderConsistent h) (oui : Arr 3)
    (f : EapolKeyFrame Chain) (h0 : f.key_mic = List.replicate 16 0)
    (h2 : f.key_information.encrypted_key_data = true)
    (raws : List RawElement) (x : Nat) (hch : ChainOf f.key_data raws x)
    (hs : ∀ e, raws.getLast? = some e → slack ≤ e.slice.length)
    (buf : Bytes) (temp : Nat) (ht : (raws.flatMap tlv).length + 24 ≤ temp)
    (hl : (raws.flatMap tlv).length + 119 < 65536)
    (hb : h.lengthInBytes + (raws.flatMap tlv).length + 131 ≤ buf.length) :
    letI := realKw
    ∃ (kck kek : Arr 16) (tk : Bytes),
      partitionPtk (derivePtk pmk aa spa an sn n) akm cipher = some (kck.val, kek.val, tk) ∧
      partitionPtk (derivePtk pmk spa aa sn an n) akm cipher = some (kck.val, kek.val, tk) ∧
      ∃ out : Bytes,
        serializeEapolDataFrame (some kck) (some kek)
          ⟨h, some ⟨oui, 0x888e, { f with key_data := ⟨f.key_data.write, f.key_data.measure⟩ }⟩⟩ buf temp =
            .ok (out ++ buf.drop out.length, out.length) ∧
        ∃ mic data : Bytes,
          (∀ (fcs : Arr 4) (with_fcs : Bool),
            deserializeEapolDataFrame (some kck) (some kek) (out ++ if with_fcs then fcs.val else []) temp akm
              with_fcs = .ok { f with key_mic := mic, key_data := data }) ∧
          ∀ {α : Type} (k : ElementKind α), NotPadding k.id → (∀ p, k.read p ≠ .panic) →
            getFirstElement data k = getFirstElement (raws.flatMap tlv) k := by
  letI := realKw
  obtain ⟨kck, kek, tk, hp, _⟩ := c36_derived pmk aa spa an sn akm cipher n hn
  obtain ⟨_, e1, e2, _⟩ := (c36_partition _ akm cipher kck kek tk).1 hp
  rw [hkck, Option.some.injEq] at e1
  rw [hkek, Option.some.injEq] at e2
  refine ⟨⟨kck, e1.symm⟩, ⟨kek, e2.symm⟩, tk, hp, ?_, ?_⟩
  · rw [← (c35_symmetric pmk aa spa an sn n).1]; exact hp
  obtain ⟨out, mic, _, hser, _, _, _, data, hdes, hlook⟩ := c63_protected_partial ⟨kck, e1.symm⟩ ⟨kek, e2.symm⟩ akm
    hmic h hv hc oui f h0 h2 raws x hch hs buf temp ht hl hb
  exact ⟨out, hser, mic, data, hdes, hlook⟩

/-- The group key as an item of a chain. -/
theorem gtk_item (g : GtkKde) (hg : g.gtk.length ≤ 249) :
    ∃ x, ItemOf (.typed (gtkElem g)) ⟨221, [0x00, 0x0f, 0xac, 1] ++ (toLE g.gtk_info.bits ++ g.gtk)⟩ x := by
  have hsl := slack_le
  have hw : Emits (gtkElem g).obj.write (toLE g.gtk_info.bits ++ g.gtk) (2 + max g.gtk.length slack) := by
    apply Emits.cast
    · apply WEmits.run
      apply WEmits.leI (hp := by decide)
      exact WEmits.gwrite (Emits.bytes g.gtk)
    · rfl
    · rfl
  have := ItemOf.typed (gtkElem g) _ _ hw (by simp; omega) (by simp [gtkElem, measureGtk])
    (by simp [rawOf, gtkElem, kdeId]; omega)
  exact ⟨_, this⟩

/-- Message 3 of the four-way handshake: RSN element and group key, in this order.  The supplicant finds the same
group key, with its number and flag, and an RSN element with the same fields.  All other fields of the message
are as they were sent. -/
theorem c63_group_key_partial [Crc32] [HmacSha1] (pmk : Bytes) (aa spa : Mac) (an sn : Arr 32) (akm : IEEE80211AkmType)
    (cipher : IEEE80211CipherSuiteSelector) (n : Nat) (hn : ptkLen akm cipher = some n)
    (hkck : akm.kckLen = some 16) (hkek : akm.kekLen = some 16) (hmic : akm.keyMicLen = some 16)
    (h : DataFrameHeader) (hv : ValidData h) (hc : HeaderConsistent h) (oui : Arr 3)
    (f : EapolKeyFrame Chain) (h0 : f.key_mic = List.replicate 16 0)
    (h2 : f.key_information.encrypted_key_data = true)
    (e : RsnElement.OfLists) (hwf : RsnWf e) (hs : RsnSmall e) (hca : RsnCanonical e) (he : RsnEndOk e)
    (hm : ∀ l, e.pmkid_list = some l → l = []) (hle : (rsnWire 1 e).length ≤ 255)
    (g : GtkKde) (hg : g.gtk.length ≤ 249)
    (hd : f.key_data = .link (.typed (rsnElem e)) (.last (.typed (gtkElem g))))
    (buf : Bytes) (temp : Nat) (ht : 600 ≤ temp) (hb : h.lengthInBytes + 700 ≤ buf.length) :
    letI := realKw
    ∃ (kck kek : Arr 16) (tk : Bytes),
      partitionPtk (derivePtk pmk aa spa an sn n) akm cipher = some (kck.val, kek.val, tk) ∧
      partitionPtk (derivePtk pmk spa aa sn an n) akm cipher = some (kck.val, kek.val, tk) ∧
      ∃ out : Bytes,
        serializeEapolDataFrame (some kck) (some kek)
          ⟨h, some ⟨oui, 0x888e, { f with key_data := ⟨f.key_data.write, f.key_data.measure⟩ }⟩⟩ buf temp =
            .ok (out ++ buf.drop out.length, out.length) ∧
        ∃ r q, deserializeEapolDataFrame (some kck) (some kek) out temp akm false = .ok r ∧
          (∃ mic data, r = { f with key_mic := mic, key_data := data }) ∧
          getFirstElement r.key_data gtkKind = .ok (some g) ∧
          getFirstElement r.key_data rsnKind = .ok (some q) ∧ RsnSame q e := by
  letI := realKw
  have hsl := slack_le
  obtain ⟨q, htr, hsame⟩ := c54_rsn_partial e hwf hs hca he hm hle
  obtain ⟨x, hx⟩ := htr.item
  obtain ⟨y, hy⟩ := gtk_item g hg
  have hch : ChainOf f.key_data [⟨ElementName.rsn.number, rsnWire 1 e⟩,
      ⟨221, [0x00, 0x0f, 0xac, 1] ++ (toLE g.gtk_info.bits ++ g.gtk)⟩] y := by
    rw [hd]; exact .link hx (.last hy)
  have hlast : ∀ r, [⟨ElementName.rsn.number, rsnWire 1 e⟩,
      (⟨221, [0x00, 0x0f, 0xac, 1] ++ (toLE g.gtk_info.bits ++ g.gtk)⟩ : RawElement)].getLast? = some r →
      slack ≤ r.slice.length := by
    intro r hr
    simp only [List.getLast?_cons_cons, List.getLast?_singleton, Option.some.injEq] at hr
    subst hr
    simp; omega
  have hlen : ([⟨ElementName.rsn.number, rsnWire 1 e⟩,
      (⟨221, [0x00, 0x0f, 0xac, 1] ++ (toLE g.gtk_info.bits ++ g.gtk)⟩ : RawElement)].flatMap tlv).length ≤ 514 := by
    simp [tlv]; omega
  obtain ⟨kck, kek, tk, p1, p2, out, hser, mic, data, hdes, hlook⟩ := c63_message_partial pmk aa spa an sn akm cipher n
    hn hkck hkek hmic h hv hc oui f h0 h2 _ y hch hlast buf temp (by omega) (by omega) (by omega)
  refine ⟨kck, kek, tk, p1, p2, out, hser, { f with key_mic := mic, key_data := data }, q, ?_, ⟨mic, data, rfl⟩,
    ?_, ?_, hsame⟩
  · have := hdes (Arr.zero 4) false
    simpa using this
  · rw [hlook gtkKind ((c63_not_padding _).2 ⟨by simp [gtkKind, kdeId], by simp [gtkKind, kdeId],
      by simp [gtkKind, kdeId]⟩) readGtk_safe.ne_panic]
    refine (c20_gtk g hg).2.found _ [_] [] (elementsOf_flatMap _ hch.len_le hlast) ?_
    intro r hr
    cases List.mem_singleton.1 hr
    rintro ⟨h, _⟩
    cases h
  · rw [hlook rsnKind ((c63_not_padding _).2 ⟨by simp [rsnKind], by simp [rsnKind], by simp [rsnKind]⟩)
      readRsn_safe.ne_panic]
    exact htr.found _ [] _ (elementsOf_flatMap _ hch.len_le hlast) (by simp)

omit [ScrollRule] in
/-- Violation: the padding is not taken off, and its zeros read as SSID elements: key data of one Supported Rates
element and no SSID, once padded for the key wrap, holds a hidden SSID. -/
theorem c63_ssid_wrong : ¬ ∀ (_ : ScrollRule) (raws : List RawElement), (∀ e ∈ raws, e.slice.length ≤ 255) →
    (∀ e, raws.getLast? = some e → slack ≤ e.slice.length) →
    getFirstElement (padKeyData (raws.flatMap tlv)) ssidKind = getFirstElement (raws.flatMap tlv) ssidKind := by
  intro h
  have h1 := h ⟨false⟩ [⟨1, [0x82, 0x84]⟩] (by decide) (by intro e he; cases he; decide)
  exact absurd h1 (by decide +kernel)

/-- The elements that iteration yields from it. -/
example (s : Bool) :
    letI : ScrollRule := ⟨s⟩
    rawElements (padKeyData [1, 2, 0x82, 0x84]) =
      .ok (⟨1, [0x82, 0x84]⟩ :: ⟨0xdd, []⟩ :: List.replicate (if s then 4 else 5) ⟨0, []⟩) := by
  cases s <;> decide +kernel

/-- Concrete case for the hypotheses: WPA2 with CCMP. -/
example : ptkLen .Psk .Ccmp128 = some 48 ∧ IEEE80211AkmType.Psk.kckLen = some 16 ∧
    IEEE80211AkmType.Psk.kekLen = some 16 ∧ IEEE80211AkmType.Psk.keyMicLen = some 16 := by decide

/-- The key data of a message 3 as built by the crate, padded, and what is found in it. -/
example (s : Bool) :
    letI : ScrollRule := ⟨s⟩
    let g : GtkKde := ⟨⟨1⟩, List.replicate 16 0x77⟩
    let c : Chain := .link (.typed (rsnElem .WPA2_PERSONAL)) (.last (.typed (gtkElem g)))
    ∃ buf n, c.write (List.replicate 60 0) = .ok (buf, n) ∧ n = 46 ∧
      padKeyData (buf.take n) = buf.take n ++ [0xdd, 0] ∧
      getFirstElement (padKeyData (buf.take n)) gtkKind = .ok (some g) := by
  cases s <;> exact ⟨_, _, rfl, by decide +kernel, by decide +kernel, by decide +kernel⟩

end Verif
