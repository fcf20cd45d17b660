import Verif.Model.Elements.Vendor
import Verif.Lemmas.Elements
import Verif.Lemmas.Rsn
import Verif.Props.C07
/-!
# C20: vendor elements: key data encapsulations and OWE transition mode
-/
namespace Verif

namespace Spec

/-- The payload of an OWE transition mode element. -/
def oweWire (e : OWETransitionModeElement) : Bytes :=
  e.bssid.val ++ BitVec.ofNat 8 e.ssid.bytes.length :: (e.ssid.bytes ++
    match e.band_and_channel_info with
    | some b => [b.band, b.channel]
    | none => [])

/-- The prefixes (OUI and type) of the vendor elements of the library. -/
def vendorPrefixes : List Bytes :=
  [[0x00, 0x0f, 0xac, 1], [0x00, 0x0f, 0xac, 3], [0x00, 0x0f, 0xac, 4], [0x00, 0x0f, 0xac, 6],
    [0x00, 0x0f, 0xac, 7], [0x50, 0x6f, 0x9a, 0x1c]]

/-- How the element `e` is written: id 221, the length, the prefix and the payload `p`.  The buffer
must have `extra` bytes more than that, otherwise writing errs. -/
structure VendorWrites [ScrollRule] (e : Elem) (pfx p : Bytes) (extra : Nat) : Prop where
  known : pfx ∈ vendorPrefixes
  fits : 4 + p.length ≤ 255
  wire : ∀ buf : Bytes, 6 + p.length + extra ≤ buf.length → e.writeWrapped buf =
    .ok (221 :: BitVec.ofNat 8 (4 + p.length) :: (pfx ++ p) ++ buf.drop (6 + p.length), 6 + p.length)
  short : ∀ buf : Bytes, buf.length < 6 + p.length + extra → ∃ x, e.writeWrapped buf = .err x
  size : e.wrappedMeasure = 6 + p.length

/-- How elements of the kind `k` are found and parsed: `p` is parsed to `v`; in any list of
elements exactly those of id 221 whose contents start with the prefix are considered. -/
structure VendorReads [ScrollRule] {α : Type} (k : ElementKind α) (v : α) (pfx p : Bytes) : Prop where
  read : k.read p = .ok (v, p.length)
  selects : ∀ (t : Byte) (slice : Bytes), ∃ b, elementIdMatches ⟨t, slice⟩ k.id = .ok b ∧
    (b = true ↔ t = 221 ∧ pfx <+: slice)
  found : ∀ (bytes : Bytes) (pre post : List RawElement),
    ElementsOf bytes (pre ++ ⟨221, pfx ++ p⟩ :: post) →
    (∀ e ∈ pre, ¬ (e.tlv_type = 221 ∧ pfx <+: e.slice)) → getFirstElement bytes k = .ok (some v)
  absent : ∀ (bytes : Bytes) (raws : List RawElement), ElementsOf bytes raws →
    (∀ e ∈ raws, ¬ (e.tlv_type = 221 ∧ pfx <+: e.slice)) → getFirstElement bytes k = .ok none

end Spec

open Spec

variable [ScrollRule]

omit [ScrollRule] in
private theorem prefix_len {pfx : Bytes} (hk : pfx ∈ vendorPrefixes) : pfx.length = 4 := by
  simp only [vendorPrefixes, List.mem_cons, List.not_mem_nil, or_false] at hk
  rcases hk with rfl | rfl | rfl | rfl | rfl | rfl <;> rfl

private theorem writes_of {e : Elem} {pfx p : Bytes} {n extra : Nat}
    (hk : pfx ∈ vendorPrefixes) (hw : e.id = .VendorSpecific pfx)
    (he : Emits e.obj.write p n) (hn : max n slack = p.length + extra) (hm : e.obj.measure = p.length)
    (hl : 4 + p.length ≤ 255) : VendorWrites e pfx p extra := by
  have h4 := prefix_len hk
  have hsl := slack_le
  have h := writeWrapped_emits e p n he he.le hm (by rw [hw]; simp [rawOf, h4]; omega)
  have hlen : (tlv (rawOf e.id p)).length = 6 + p.length := by
    rw [tlv_length, hw]; simp [rawOf, h4]; omega
  have hle := he.le
  refine ⟨hk, hl, ?_, ?_, ?_⟩
  · intro buf hb
    have h1 := h.ok buf (by omega)
    rw [hlen] at h1
    rw [h1, hw]
    simp [tlv, rawOf, h4]
  · intro buf hb
    exact h.err buf (by omega)
  · simp [Elem.wrappedMeasure, hw, ElementID.elementHeaderLength, hm, h4]

omit [ScrollRule] in
private theorem hasId_prefix (e : RawElement) (pfx : Bytes) :
    HasId e (.VendorSpecific pfx) ↔ e.tlv_type = 221 ∧ pfx <+: e.slice := by
  simp only [HasId, List.IsPrefix, eq_comm]

private theorem reads_of {α : Type} {k : ElementKind α} {v : α} {pfx p : Bytes}
    (hk : pfx ∈ vendorPrefixes) (hr : k.id = .VendorSpecific pfx)
    (hrd : k.read p = .ok (v, p.length)) (hp : 0 < p.length) (hs : SafeReader k.read) :
    VendorReads k v pfx p := by
  have h4 := prefix_len hk
  have hv : k.id ≠ .VendorSpecific [] := by
    rw [hr]; intro h; cases h; simp at h4
  have hsl := slack_le
  refine ⟨hrd, ?_, ?_, ?_⟩
  · intro t slice
    obtain ⟨b, hb, hi⟩ := c07_matches ⟨t, slice⟩ k.id hv
    exact ⟨b, hb, by rw [hi, hr, hasId_prefix]⟩
  · intro bytes pre post he hpre
    refine c07_first_partial he k hv (fun q => hs.ne_panic q) pre post p v (by rw [hr]; rfl) ?_ ?_
    · intro e hm
      rw [hr, hasId_prefix]; exact hpre e hm
    · rw [parsed, if_neg (by omega), hrd]
  · intro bytes raws he hno
    rw [c07_first_none he k hv (fun q => hs.ne_panic q)]
    intro q hq
    refine absurd ?_ (hno _ hq)
    rw [hr]
    exact ⟨rfl, List.prefix_append _ _⟩

/-! ## The elements one by one -/

theorem c20_mac_address (m : Mac) :
    VendorWrites (macAddressKde m) [0x00, 0x0f, 0xac, 3] m.val 0 ∧
    VendorReads macAddressKind m [0x00, 0x0f, 0xac, 3] m.val := by
  have hs := slack_le
  constructor
  · exact writes_of (n := max 6 slack) (by decide) rfl
      ((Emits.bytes m.val).pwrite0.cast rfl (by simp)) (by simp; omega) (by simp [macAddressKde]) (by simp)
  · have := readArr_append m []
    simp only [List.append_nil] at this
    exact reads_of (by decide) rfl (by simp [macAddressKind, this]) (by simp) (readArr_fixed 6).safe

theorem c20_pmkid (m : Arr 16) :
    VendorWrites (pmkidKde m) [0x00, 0x0f, 0xac, 4] m.val 0 ∧
    VendorReads pmkidKind m [0x00, 0x0f, 0xac, 4] m.val := by
  have hs := slack_le
  constructor
  · exact writes_of (n := max 16 slack) (by decide) rfl
      (writePmkid_emits m).pwrite0 (by simp; omega) (by simp [pmkidKde]) (by simp)
  · have := readArr_append m []
    simp only [List.append_nil] at this
    exact reads_of (by decide) rfl (by simp [pmkidKind, readPmkid, this]) (by simp)
      (readArr_fixed 16).safe

theorem c20_nonce (m : Arr 32) :
    VendorWrites (nonceKde m) [0x00, 0x0f, 0xac, 6] m.val 0 ∧
    VendorReads nonceKind m [0x00, 0x0f, 0xac, 6] m.val := by
  have hs := slack_le
  constructor
  · exact writes_of (n := max 32 slack) (by decide) rfl
      ((Emits.bytes m.val).pwrite0.cast rfl (by simp)) (by simp; omega) (by simp [nonceKde]) (by simp)
  · have := readArr_append m []
    simp only [List.append_nil] at this
    exact reads_of (by decide) rfl (by simp [nonceKind, this]) (by simp) (readArr_fixed 32).safe

/-- The lifetime is big-endian. -/
theorem c20_lifetime (x : BitVec 32) :
    VendorWrites (lifetimeKde x) [0x00, 0x0f, 0xac, 7] (toBE x) 0 ∧
    VendorReads lifetimeKind x [0x00, 0x0f, 0xac, 7] (toBE x) := by
  have hs := slack_le
  constructor
  · exact writes_of (n := max 4 slack) (by decide) rfl
      ((Emits.writeBE x).pwrite0.cast rfl (by simp)) (by simp; omega) (by simp [lifetimeKde]) (by simp)
  · have := readBE_append rfl x []
    simp only [List.append_nil] at this
    exact reads_of (by decide) rfl (by simp [lifetimeKind, this]) (by simp) (readBE_fixed 32).safe

/-- What big-endian means. -/
example : toBE (0x00015180 : BitVec 32) = [0x00, 0x01, 0x51, 0x80] := by decide

private theorem readGtk_ok (i : BitVec 16) (g : Bytes) :
    readGtk (toLE i ++ g) = .ok (⟨⟨i⟩, g⟩, 2 + g.length) := by
  apply RdAt.run
  apply RdAt.cast
  · apply RdAt.le (h := by decide) (hp := by decide)
    apply RdAt.bind0 RdAt.remaining
    rw [← List.append_nil g]
    apply RdAt.bind (rest := [])
    · simpa using RdAt.toEnd (inp := g)
    · simp only [List.append_nil]
      exact RdAt.pure
  · simp

private theorem readGtk_safe : SafeReader readGtk := by
  apply Rd.Safe.run
  rd_safe

/-- A GTK of up to 249 bytes (the most an element can hold). -/
theorem c20_gtk (k : GtkKde) (hk : k.gtk.length ≤ 249) :
    VendorWrites (gtkElem k) [0x00, 0x0f, 0xac, 1] (toLE k.gtk_info.bits ++ k.gtk)
      (slack - k.gtk.length) ∧
    VendorReads gtkKind k [0x00, 0x0f, 0xac, 1] (toLE k.gtk_info.bits ++ k.gtk) := by
  have hs := slack_le
  constructor
  · refine writes_of (n := 2 + max k.gtk.length slack) (by decide) rfl ?_ (by simp; omega)
      (by simp [gtkElem, measureGtk]) (by simp; omega)
    apply Emits.cast
    · apply WEmits.run
      apply WEmits.leI (hp := by decide)
      exact WEmits.gwrite (Emits.bytes k.gtk)
    · rfl
    · rfl
  · refine reads_of (by decide) rfl ?_ (by simp; omega) readGtk_safe
    have := readGtk_ok k.gtk_info.bits k.gtk
    simpa [gtkKind] using this

/-- Any two bytes or more are a GTK encapsulation, and writing back what was parsed gives the
same bytes; fewer are an error. -/
theorem c20_gtk_any (p : Bytes) :
    (2 ≤ p.length → ∃ k, readGtk p = .ok (k, p.length) ∧ toLE k.gtk_info.bits ++ k.gtk = p) ∧
    (p.length < 2 → ∃ x, readGtk p = .err x) := by
  constructor
  · intro h
    obtain ⟨i, g, rfl⟩ := exists_toLE 16 rfl (by omega : 16 / 8 ≤ p.length)
    exact ⟨⟨⟨i⟩, g⟩, by simpa using readGtk_ok i g, rfl⟩
  · intro h
    apply RdErr.run
    apply RdErr.bind_left
    obtain ⟨e, he⟩ := (readLE_fixed 16 p).2 h
    exact RdErr.gread he

/-! ## OWE transition mode -/

private theorem readBand_ok (b : BandAndChannelInfo) (rest : Bytes) :
    readBandAndChannelInfo (b.band :: b.channel :: rest) = .ok (b, 2) := by
  rd_exact

private theorem readBand_fixed : FixedReader readBandAndChannelInfo 2 := by
  rd_fixed_run

private theorem readOWE_safe : SafeReader readOWE := by
  apply Rd.Safe.run
  rd_safe
  apply Rd.Safe.bind (Rd.Safe.gread (readStr_safe _)); intro _
  apply Rd.Safe.bind (Rd.Safe.greadOk readBand_fixed.safe); intro _
  exact Rd.Safe.pure

private theorem readOWE_ok (e : OWETransitionModeElement) (rest : Bytes)
    (hl : e.ssid.bytes.length ≤ 255)
    (hr : e.band_and_channel_info = none → rest.length < 2)
    (hs : e.band_and_channel_info = none → slack ≤ e.ssid.bytes.length + rest.length) :
    readOWE (oweWire e ++ rest) = .ok (e, (oweWire e).length) := by
  obtain ⟨m, s, b⟩ := e
  have hsl := slack_le
  simp only at hl hr hs
  have h : (BitVec.ofNat 8 s.bytes.length).toNat = s.len := by
    simp [Str.len]; omega
  cases b with
  | none =>
    simp only [oweWire, List.append_assoc, List.cons_append, List.nil_append]
    apply RdAt.run
    apply RdAt.cast
    · apply RdAt.arr (hp := by decide)
      apply RdAt.u8
      apply RdAt.bind (bs := s.bytes)
      · rw [h]
        exact RdAt.gread (readStr_append s _) (by simpa using hs rfl)
      · obtain ⟨e, he⟩ := (readBand_fixed rest).2 (hr rfl)
        exact RdAt.bind0 (RdAt.greadOk_none he) RdAt.pure
    · simp; omega
  | some b =>
    simp only [oweWire, List.append_assoc, List.cons_append, List.nil_append]
    apply RdAt.run
    apply RdAt.cast
    · apply RdAt.arr (hp := by decide)
      apply RdAt.u8
      apply RdAt.bind (bs := s.bytes)
      · rw [h]
        exact RdAt.gread (readStr_append s _) (by simp; omega)
      · apply RdAt.bind (bs := [b.band, b.channel])
        · exact RdAt.greadOk_some (readBand_ok b rest) (by simp; omega)
        · exact RdAt.pure
    · simp; omega

theorem writeOWE_emits (e : OWETransitionModeElement) :
    ∃ n, Emits (writeOWE e) (oweWire e) n ∧
      n = (oweWire e).length + (slack - e.ssid.bytes.length - (oweWire e).length +
        if e.band_and_channel_info = none then slack - e.ssid.bytes.length else 0) := by
  obtain ⟨m, s, b⟩ := e
  have hsl := slack_le
  cases b with
  | none =>
    refine ⟨6 + 1 + max s.bytes.length slack, ?_, ?_⟩
    · apply Emits.cast
      · apply WEmits.run
        apply WEmits.arr (hp := by decide)
        apply WEmits.u8
        apply WEmits.bind (WEmits.gwrite (Emits.bytes s.bytes))
        exact WEmits.pure
      · simp [oweWire, Str.len]
      · simp; omega
    · simp [oweWire]; omega
  | some b =>
    refine ⟨6 + 1 + s.bytes.length + 2, ?_, ?_⟩
    · apply Emits.cast
      · apply WEmits.run
        apply WEmits.arr (hp := by decide)
        apply WEmits.u8
        apply WEmits.bind (WEmits.gwrite (Emits.bytes s.bytes))
        apply WEmits.gwrite (bs := [b.band, b.channel]) (n := 2)
        wr_exact
      · simp [oweWire, Str.len]
      · simp; omega
    · simp [oweWire]; omega

/-- An OWE transition mode element whose SSID fits is written as BSSID, length of the SSID, SSID and,
if given, band and channel, behind its prefix. -/
theorem c20_owe_write (e : OWETransitionModeElement) (h : (oweWire e).length ≤ 251) :
    VendorWrites (oweElem e) [0x50, 0x6f, 0x9a, 0x1c] (oweWire e)
      (if e.band_and_channel_info = none then slack - e.ssid.bytes.length else 0) := by
  have hsl := slack_le
  obtain ⟨n, hn, he⟩ := writeOWE_emits e
  have h7 : 7 ≤ (oweWire e).length := by
    simp [oweWire]; omega
  refine writes_of (n := n) (by decide) rfl hn (by omega) ?_ (by omega)
  obtain ⟨m, s, b⟩ := e
  cases b <;> simp [oweElem, measureOWE, oweWire, Str.len] <;> omega

/-- It is found by its prefix and parsed back to the same value.  Under the strict rule of `scroll`
there must be something after the length of the SSID. -/
theorem c20_owe_read_partial (e : OWETransitionModeElement) (h : e.ssid.bytes.length ≤ 255)
    (hs : e.band_and_channel_info = none → slack ≤ e.ssid.bytes.length) :
    VendorReads oweKind e [0x50, 0x6f, 0x9a, 0x1c] (oweWire e) := by
  refine reads_of (by decide) rfl ?_ (by simp [oweWire]; omega) readOWE_safe
  have := readOWE_ok e [] h (by simp) (by simpa using hs)
  simpa [oweKind] using this

/-- Violation: under the strict rule the element of a hidden network (empty SSID) without band and
channel is written, but not parsed. -/
theorem c20_owe_hidden_strict (m : Mac) (h : slack = 1) :
    ∃ x, readOWE (oweWire ⟨m, ⟨[], rfl⟩, none⟩) = .err x := by
  simp only [oweWire]
  apply RdErr.run
  apply RdErr.bind_right (bs := m.val)
  · exact (RdAt.gread (readArr_append m _) (by simp; omega)).cast (by simp)
  · apply RdErr.bind_right (bs := [0])
    · exact RdAt.gread (readU8_cons _ _) (by simp; omega)
    · apply RdErr.bind_left
      exact RdErr.gread_short (by simp [h])

/-- Whatever is parsed successfully is the wire form of the result, followed by at most one
byte if there is no band and channel. -/
theorem c20_owe_parse (inp : Bytes) (e : OWETransitionModeElement) (n : Nat)
    (h : readOWE inp = .ok (e, n)) :
    ∃ rest, inp = oweWire e ++ rest ∧ n = (oweWire e).length ∧ e.ssid.bytes.length ≤ 255 ∧
      (e.band_and_channel_info = none → rest.length < 2) := by
  have hsl := slack_le
  by_cases h7 : 7 ≤ inp.length
  · obtain ⟨m, r, rfl⟩ := exists_arr 6 (by omega : 6 ≤ inp.length)
    simp at h7
    obtain ⟨l, r, rfl⟩ := exists_u8 (by omega : 1 ≤ r.length)
    by_cases hx : ∃ x, readOWE (m.val ++ l :: r) = .err x
    · obtain ⟨x, hx⟩ := hx; rw [hx] at h; simp at h
    · by_cases hr : r.length < l.toNat ∨ r.length < slack ∨ utf8Valid (r.take l.toNat) = false
      · refine absurd ?_ hx
        apply RdErr.run
        apply RdErr.bind_right (bs := m.val)
        · exact (RdAt.gread (readArr_append m _) (by simp; omega)).cast (by simp)
        · apply RdErr.bind_right (bs := [l])
          · exact RdAt.gread (readU8_cons _ _) (by simp; omega)
          · apply RdErr.bind_left
            rcases hr with hr | hr | hr
            · exact RdErr.gread (e := .tooBig) (by simp [readStr, hr])
            · exact RdErr.gread_short hr
            · by_cases hr' : r.length < l.toNat
              · exact RdErr.gread (e := .tooBig) (by simp [readStr, hr'])
              · exact RdErr.gread (e := .badInput) (by simp [readStr, hr', hr])
      · simp only [not_or, Nat.not_lt, Bool.not_eq_false] at hr
        obtain ⟨h1, h2, h3⟩ := hr
        have hl := l.isLt
        by_cases hb : r.length - l.toNat < 2
        · have hk := readOWE_ok ⟨m, ⟨r.take l.toNat, h3⟩, none⟩ (r.drop l.toNat)
            (by simp; omega) (by simp; omega) (by simp; omega)
          have e1 : oweWire ⟨m, ⟨r.take l.toNat, h3⟩, none⟩ ++ r.drop l.toNat = m.val ++ l :: r := by
            simp [oweWire, Nat.min_eq_left h1]
          rw [e1, h] at hk
          simp only [Res.ok.injEq, Prod.mk.injEq] at hk
          obtain ⟨rfl, rfl⟩ := hk
          exact ⟨_, e1.symm, rfl, by simp; omega, by simp; omega⟩
        · obtain ⟨a, r2, hd⟩ := exists_u8 (inp := r.drop l.toNat) (by simp; omega)
          have hd2 := congrArg List.length hd
          simp at hd2
          obtain ⟨b, r3, rfl⟩ := exists_u8 (inp := r2) (by omega)
          have hk := readOWE_ok ⟨m, ⟨r.take l.toNat, h3⟩, some ⟨a, b⟩⟩ r3
            (by simp; omega) (by simp) (by simp)
          have e1 : oweWire ⟨m, ⟨r.take l.toNat, h3⟩, some ⟨a, b⟩⟩ ++ r3 = m.val ++ l :: r := by
            simp only [oweWire, List.append_assoc, List.cons_append, List.nil_append]
            rw [← hd, List.take_append_drop]
            simp [Nat.min_eq_left h1]
          rw [e1, h] at hk
          simp only [Res.ok.injEq, Prod.mk.injEq] at hk
          obtain ⟨rfl, rfl⟩ := hk
          exact ⟨_, e1.symm, rfl, by simp; omega, by simp⟩
  · have hn : Rd.Needs (do
        let bssid ← Rd.gread readMac
        let ssid_len ← Rd.gread readU8
        let ssid ← Rd.gread (readStr ssid_len.toNat)
        let band_and_channel_info ← Rd.greadOk readBandAndChannelInfo
        pure (⟨bssid, ssid, band_and_channel_info⟩ : OWETransitionModeElement)) (6 + 1) := by
      apply Rd.Needs.bind (Rd.Adv.gread (readArr_fixed 6).adv); intro _
      exact Rd.Needs.left (Rd.Needs.gread (readLE_fixed 8))
    obtain ⟨x, hx⟩ := hn.run inp (by omega)
    rw [show readOWE inp = _ from hx] at h
    simp at h

/-! ## Different kinds do not meet -/

omit [ScrollRule] in
/-- No raw element has two of the prefixes. -/
theorem c20_distinct (slice : Bytes) (p q : Bytes) (hp : p ∈ vendorPrefixes) (hq : q ∈ vendorPrefixes)
    (h1 : p <+: slice) (h2 : q <+: slice) : p = q := by
  rcases List.prefix_or_prefix_of_prefix h1 h2 with h | h
  · exact h.eq_of_length (by rw [prefix_len hp, prefix_len hq])
  · exact (h.eq_of_length (by rw [prefix_len hp, prefix_len hq])).symm

/-- Concrete case: a nonce encapsulation is skipped, the lifetime behind it is found. -/
example : (let _ : ScrollRule := ⟨true⟩
    getFirstElement [221, 5, 0x00, 0x0f, 0xac, 6, 9, 221, 8, 0x00, 0x0f, 0xac, 7, 0, 1, 0x51, 0x80]
      lifetimeKind) = .ok (some 86400) := by
  decide

/-- Concrete case: OWE transition with band and channel. -/
example : (let _ : ScrollRule := ⟨true⟩
    (getFirstElement [221, 15, 0x50, 0x6f, 0x9a, 0x1c, 1, 2, 3, 4, 5, 6, 2, 104, 105, 81, 6]
      oweKind).map (·.map fun e => (e.bssid.val, e.ssid.bytes, e.band_and_channel_info))) =
    .ok (some ([1, 2, 3, 4, 5, 6], [104, 105], some ⟨81, 6⟩)) := by
  decide

end Verif
