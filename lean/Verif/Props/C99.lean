import Verif.Props.C20
import Verif.Props.C83
import Verif.Props.C95
/-!
# C99: open networks lead to their encrypted twins

Opportunistic Wireless Encryption, transition mode (Wi-Fi Alliance, version 1.1, section 2.2): an open network and an
encrypted one name each other by an element with address and name, and the encrypted one does not say its name.  A station
that hears both joins the encrypted one.  Its decisions are not in the crate; they are written here with functions of the
crate.
-/
namespace Verif

namespace Spec

/-- What is in the beacons of a network, in this order: `before`, the name, `mid`, the RSN element, `mid'`, the transition
element, `after`.  Other elements are given with the elements as which they are written. -/
structure OweCell where
  header : ManagementFrameHeader
  fields : BeaconLikeBody Unit
  name : Str
  rsn : Option RsnElement.OfLists
  twin : Option OWETransitionModeElement
  before : List (ChainItem × RawElement)
  mid : List (ChainItem × RawElement)
  mid' : List (ChainItem × RawElement)
  after : List (ChainItem × RawElement)

/-- The elements around the name. -/
def OweCell.around [ScrollRule] (c : OweCell) : Surroundings where
  header := c.header
  fields := c.fields
  before := c.before
  after := c.mid ++ (c.rsn.toList.map fun e => (.typed (rsnElem e), ⟨48, rsnWire 1 e⟩)) ++ c.mid' ++
    (c.twin.toList.map fun t => (.typed (oweElem t), ⟨221, [0x50, 0x6f, 0x9a, 0x1c] ++ oweWire t⟩)) ++ c.after

/-- An element that is none of the three. -/
def Elsewise (r : RawElement) : Prop :=
  r.tlv_type ≠ 0 ∧ r.tlv_type ≠ 48 ∧ ¬ (r.tlv_type = 221 ∧ [0x50, 0x6f, 0x9a, 0x1c] <+: r.slice)

/-- Names of at most 32 bytes, an RSN element as in C54, no second element of the three kinds; HT control as in the frame
control field (C21).  Under the strict rule of `scroll` the last element is not empty, and neither is the name in a
transition element without channel. -/
structure OweCell.Fine [ScrollRule] (c : OweCell) : Prop where
  ht : HtConsistent c.header
  name : c.name.bytes.length ≤ 32
  rsn : ∀ e, c.rsn = some e → RsnWf e ∧ RsnSmall e ∧ RsnCanonical e ∧ RsnEndOk e ∧
    (∀ l, e.pmkid_list = some l → l = []) ∧ (rsnWire 1 e).length ≤ 255
  twin : ∀ t, c.twin = some t → t.ssid.bytes.length ≤ 32 ∧
    (t.band_and_channel_info = none → slack ≤ t.ssid.bytes.length)
  others : ∀ p ∈ c.before ++ c.mid ++ c.mid' ++ c.after, (∃ x, ItemOf p.1 p.2 x) ∧ Elsewise p.2
  last : ∀ p, c.around.after.getLast? = some p → slack ≤ p.2.slice.length
  lone : c.around.after = [] → slack ≤ c.name.bytes.length

variable [ScrollRule]

/-- What a station learns of a network: the key management suites, if there is security at all, and the transition
element. -/
structure Learned where
  bssid : Mac
  name : Option Str
  secured : Option (List IEEE80211AkmType)
  twin : Option OWETransitionModeElement
  deriving DecidableEq

/-- The key management suites of a received RSN element. -/
def akmsOf (e : RsnElement.Parsed) : Res (List IEEE80211AkmType) :=
  match e.akm_list with
  | none => .ok []
  | some it => it.collect readAkm ((it.bytes.getD []).length + 1)

/-- ... and nothing if there is none. -/
def securedBy : Option RsnElement.Parsed → Res (Option (List IEEE80211AkmType))
  | none => .ok none
  | some e => (akmsOf e).map some

/-- What a station learns from elements. -/
def learnFrom (bssid : Mac) (els : Bytes) : Res Learned := do
  let name ← bodySsid els
  let rsn ← getFirstElement els rsnKind
  let secured ← securedBy rsn
  let twin ← getFirstElement els oweKind
  pure ⟨bssid, name, secured, twin⟩

/-- What the network says. -/
def OweCell.said (c : OweCell) : Learned where
  bssid := c.header.bssid
  name := if slack ≤ c.name.bytes.length then some c.name else none
  secured := c.rsn.map fun e => e.akm_list.getD []
  twin := c.twin

/-- Where to go instead of an open network: to the network that it names, if it was heard, is encrypted in this way, and
names the open one in turn. -/
def Learned.leads (heard : List Learned) (o : Learned) : Option (Mac × Str) :=
  match o.secured, o.twin with
  | none, some t =>
    (heard.find? fun g => g.bssid = t.bssid ∧ .OpportunisticWirelessEncryption ∈ g.secured.getD [] ∧
      (g.twin.map fun t' => (t'.bssid, some t'.ssid)) = some (o.bssid, o.name)).map fun g => (g.bssid, t.ssid)
  | _, _ => none

/-- `e` is the encrypted twin of the open network `o`. -/
def IsTwin (o e : OweCell) : Prop :=
  o.rsn = none ∧ (∃ r l, e.rsn = some r ∧ r.akm_list = some l ∧ .OpportunisticWirelessEncryption ∈ l) ∧
  ∃ t t', o.twin = some t ∧ e.twin = some t' ∧ t.bssid = e.header.bssid ∧ t'.bssid = o.header.bssid ∧ t'.ssid = o.name

variable [Crc32]

/-- A beacon or probe response. -/
def OweCell.send (response : Bool) (c : OweCell) (fcs : Bool) (buf : Bytes) : Res Bytes :=
  announce response c.around c.name fcs buf

/-- What a station learns from a frame. -/
def learn (fcs : Bool) (frame : Bytes) : Res (Option Learned) :=
  match matchFrames frame (if fcs then some true else none)
    [armOf MgmtKind.Beacon.frame (readMgmtFrame readBeaconLike) fun r => (r.1.bssid, r.2.elements),
      armOf MgmtKind.ProbeResponse.frame (readMgmtFrame readBeaconLike) fun r => (r.1.bssid, r.2.elements)] with
  | .panic => .panic
  | .err _ => .ok none
  | .ok (_, bssid, els) => (learnFrom bssid els).map some

/-- ... and from all that it hears. -/
def learnAll (fcs : Bool) : List Bytes → Res (List Learned)
  | [] => .ok []
  | f :: fs => do
    let x ← learn fcs f
    let l ← learnAll fcs fs
    pure (x.toList ++ l)

/-- What is on the air: a network, by a beacon or probe response, or something else. -/
inductive OweAir where
  | cell (response : Bool) (c : OweCell)
  | other (frame : Bytes)

/-- The networks. -/
def OweAir.cells : List OweAir → List OweCell
  | [] => []
  | .cell _ c :: l => c :: cells l
  | .other _ :: l => cells l

/-- The frames. -/
def OweAir.sendAll (fcs : Bool) (buf : Bytes) : List OweAir → Res (List Bytes)
  | [] => .ok []
  | .cell r c :: l => do
    let f ← c.send r fcs buf
    let fs ← sendAll fcs buf l
    pure (f :: fs)
  | .other f :: l => do
    let fs ← sendAll fcs buf l
    pure (f :: fs)

omit [Crc32] in
/-- Other frames are no beacons or probe responses, and have four bytes where a check sequence is expected. -/
def OweAir.Fine (fcs : Bool) : OweAir → Prop
  | .cell _ c => c.Fine
  | .other f => ¬ IsKind .Beacon f ∧ ¬ IsKind .ProbeResponse f ∧ (fcs = true → 4 ≤ f.length)

end Spec

open Spec

variable [ScrollRule]

/-! ## The suites of a received element -/

private theorem akm_length {it : ReadIterator} {l : List IEEE80211AkmType} (h : Yields readAkm it l) :
    l.length ≤ (it.bytes.getD []).length := by
  induction h with
  | done h => simp
  | @more it it' a l h t ih =>
    obtain ⟨b⟩ := it
    cases b with
    | none => simp [ReadIterator.next] at h
    | some b =>
      simp only [ReadIterator.next] at h
      cases hr : readAkm b with
      | panic => simp [hr] at h
      | err e => simp [hr] at h
      | ok p =>
        obtain ⟨x, n⟩ := p
        have hn : n = 4 := by
          by_cases h4 : 4 ≤ b.length
          · obtain ⟨y, hy⟩ := (readAkm_fixed b).1 h4
            rw [hr] at hy
            simp at hy
            exact hy.2
          · obtain ⟨e, he⟩ := (readAkm_fixed b).2 (by omega)
            rw [hr] at he
            cases he
        simp only [hr] at h
        split at h
        · rename_i hle
          simp only [Res.ok.injEq, Prod.mk.injEq, Option.some.injEq] at h
          obtain ⟨rfl, rfl⟩ := h
          simp only [Option.getD_some, List.length_drop] at ih
          simp only [List.length_cons, Option.getD_some]
          omega
        · cases h

private theorem akms_same {q : RsnElement.Parsed} {e : RsnElement.OfLists} (h : RsnSame q e) :
    akmsOf q = .ok (e.akm_list.getD []) := by
  have := h.2.2.1
  unfold akmsOf
  cases hq : q.akm_list <;> cases he : e.akm_list <;> rw [hq, he] at this
  · rfl
  · cases this
  · cases this
  · have hy : Yields readAkm _ _ := this
    exact collect_of_yields hy _ (by have := akm_length hy; omega)

private theorem akms_safe (q : RsnElement.Parsed) : ∃ l, akmsOf q = .ok l := by
  have key : ∀ (k : Nat) (it : ReadIterator), (it.bytes.getD []).length < k → ∃ l, it.collect readAkm k = .ok l := by
    intro k
    induction k with
    | zero => intro it h; omega
    | succ k ih =>
      intro it h
      obtain ⟨b⟩ := it
      cases b with
      | none => exact ⟨[], rfl⟩
      | some b =>
        by_cases h4 : 4 ≤ b.length
        · obtain ⟨y, hy⟩ := (readAkm_fixed b).1 h4
          obtain ⟨l, hl⟩ := ih ⟨some (b.drop 4)⟩ (by simp at h ⊢; omega)
          exact ⟨y :: l, by simp [ReadIterator.collect, ReadIterator.next, hy, h4, hl]⟩
        · obtain ⟨e, he⟩ := (readAkm_fixed b).2 (by omega)
          exact ⟨[], by simp [ReadIterator.collect, ReadIterator.next, he]⟩
  unfold akmsOf
  split
  · exact ⟨[], rfl⟩
  · exact key _ _ (by omega)

private theorem learn_total (bssid : Mac) (els : Bytes) : ∃ l, learnFrom bssid els = .ok l := by
  obtain ⟨a, ha⟩ := c57_ssid_total els
  obtain ⟨b, hb⟩ := (c08_lookup_safe els rsnKind (by simp [rsnKind]) fun q => readRsn_safe.ne_panic q).2.1
  obtain ⟨c, hc⟩ := (c08_lookup_safe els oweKind (by simp [oweKind, oweId]) fun q => readOWE_safe.ne_panic q).2.1
  have hs : ∃ x, securedBy b = .ok x := by
    cases b with
    | none => exact ⟨_, rfl⟩
    | some e =>
      obtain ⟨l, hl⟩ := akms_safe e
      exact ⟨some l, by simp only [securedBy, hl]; rfl⟩
  obtain ⟨x, hx⟩ := hs
  exact ⟨_, by simp only [learnFrom, ha, hb, hc, hx, Res.ok_bind]; rfl⟩

/-! ## What is said is learned -/

private theorem owe_item (t : OWETransitionModeElement) (h : t.ssid.bytes.length ≤ 32) :
    ∃ x, ItemOf (.typed (oweElem t)) ⟨221, [0x50, 0x6f, 0x9a, 0x1c] ++ oweWire t⟩ x := by
  have hs := slack_le
  obtain ⟨n, hw, hn⟩ := writeOWE_emits t
  have hlen : (oweWire t).length = 7 + t.ssid.bytes.length + if t.band_and_channel_info.isSome then 2 else 0 := by
    obtain ⟨m, s, b⟩ := t
    cases b <;> simp [oweWire] <;> omega
  have hle : (oweWire t).length ≤ 41 := by rw [hlen]; split <;> omega
  refine ⟨_, ItemOf.typed (oweElem t) (oweWire t) n hw (by split at hn <;> omega) ?_ ?_⟩
  · show measureOWE t = _
    rw [hlen, measureOWE, Str.len]
  · show ([0x50, 0x6f, 0x9a, 0x1c] ++ oweWire t).length ≤ 255
    simp; omega

private theorem around_fine (c : OweCell) (hc : c.Fine) : c.around.Fine := by
  refine ⟨hc.ht, ?_, hc.last⟩
  intro p hp
  have ho : ∀ q ∈ c.before ++ c.mid ++ c.mid' ++ c.after, (∃ x, ItemOf q.1 q.2 x) ∧ q.2.tlv_type ≠ 0 :=
    fun q hq => ⟨(hc.others q hq).1, (hc.others q hq).2.1⟩
  simp only [OweCell.around, List.mem_append, List.mem_map, Option.mem_toList] at hp
  rcases hp with hp | (((hp | ⟨e, he, rfl⟩) | hp) | ⟨t, ht, rfl⟩) | hp
  · exact ho p (by simp [hp])
  · exact ho p (by simp [hp])
  · obtain ⟨h1, h2, h3, h4, h5, h6⟩ := hc.rsn e he
    obtain ⟨q, hq, -⟩ := c54_rsn_partial e h1 h2 h3 h4 h5 h6
    exact ⟨hq.item, by show (48 : Byte) ≠ 0; decide⟩
  · exact ho p (by simp [hp])
  · exact ⟨owe_item t (hc.twin t ht).1, by show (221 : Byte) ≠ 0; decide⟩
  · exact ho p (by simp [hp])

private theorem learned (c : OweCell) (hc : c.Fine) (els : Bytes)
    (h : ElementsOf els (c.around.before.map Prod.snd ++ ⟨0, c.name.bytes⟩ :: c.around.after.map Prod.snd)) :
    learnFrom c.header.bssid els = .ok c.said := by
  have hf := around_fine c hc
  have hname : bodySsid els = .ok (if slack ≤ c.name.bytes.length then some c.name else none) := by
    split
    · rename_i hne
      exact announced_ssid _ hf c.name hne hc.name els h
    · rename_i hne
      exact announced_no_ssid _ hf _ (fun hb => hne hb.1) els h
  have ho : ∀ q ∈ c.before ++ c.mid ++ c.mid' ++ c.after, Elsewise q.2 := fun q hq => (hc.others q hq).2
  have hb : ∀ r ∈ c.before.map Prod.snd, Elsewise r := by
    intro r hr; obtain ⟨p, hp, rfl⟩ := List.mem_map.1 hr; exact ho p (by simp [hp])
  have hm : ∀ r ∈ c.mid.map Prod.snd, Elsewise r := by
    intro r hr; obtain ⟨p, hp, rfl⟩ := List.mem_map.1 hr; exact ho p (by simp [hp])
  have hm' : ∀ r ∈ c.mid'.map Prod.snd, Elsewise r := by
    intro r hr; obtain ⟨p, hp, rfl⟩ := List.mem_map.1 hr; exact ho p (by simp [hp])
  have ha : ∀ r ∈ c.after.map Prod.snd, Elsewise r := by
    intro r hr; obtain ⟨p, hp, rfl⟩ := List.mem_map.1 hr; exact ho p (by simp [hp])
  have hsec : getFirstElement els rsnKind >>= securedBy = .ok (c.rsn.map fun e => e.akm_list.getD []) := by
    cases hr : c.rsn with
    | none =>
      have : getFirstElement els rsnKind = .ok none := by
        rw [c07_first_none h rsnKind (by simp [rsnKind]) (fun q => readRsn_safe.ne_panic q)]
        intro p hp
        exfalso
        have h48 : ∃ r : RawElement, r ∈ c.around.before.map Prod.snd ++ ⟨0, c.name.bytes⟩ :: c.around.after.map Prod.snd ∧
            r.tlv_type = 48 := ⟨_, hp, rfl⟩
        obtain ⟨r, hr', h48⟩ := h48
        simp only [OweCell.around, hr, Option.toList_none, List.map_nil, List.append_nil, List.map_append, List.mem_append,
          List.mem_cons] at hr'
        rcases hr' with hr' | rfl | ((hr' | hr') | hr') | hr'
        · exact (hb r hr').2.1 h48
        · exact absurd h48 (show ¬ (0 : Byte) = 48 by decide)
        · exact (hm r hr').2.1 h48
        · exact (hm' r hr').2.1 h48
        · obtain ⟨p, hp, rfl⟩ := List.mem_map.1 hr'
          obtain ⟨t, -, rfl⟩ := List.mem_map.1 hp
          exact absurd h48 (show ¬ (221 : Byte) = 48 by decide)
        · exact (ha r hr').2.1 h48
      simp only [this, Res.ok_bind]
      rfl
    | some e =>
      obtain ⟨h1, h2, h3, h4, h5, h6⟩ := hc.rsn e hr
      obtain ⟨q, hq, hsame⟩ := c54_rsn_partial e h1 h2 h3 h4 h5 h6
      have : getFirstElement els rsnKind = .ok (some q) := by
        refine hq.found els (c.before.map Prod.snd ++ ⟨0, c.name.bytes⟩ :: c.mid.map Prod.snd)
          ((c.mid' ++ (c.twin.toList.map fun t => ((.typed (oweElem t) : ChainItem),
            (⟨221, [0x50, 0x6f, 0x9a, 0x1c] ++ oweWire t⟩ : RawElement))) ++ c.after).map Prod.snd) ?_ ?_
        · have e0 : c.around.before.map Prod.snd ++ ⟨0, c.name.bytes⟩ :: c.around.after.map Prod.snd = _ := rfl
          rw [e0] at h
          simp only [OweCell.around, hr, Option.toList_some, List.map_cons, List.map_nil, List.map_append,
            List.append_assoc, List.cons_append, List.nil_append] at h ⊢
          exact h
        · intro r hr'
          simp only [List.mem_append, List.mem_cons] at hr'
          rcases hr' with hr' | rfl | hr'
          · exact (hb r hr').2.1
          · exact (show (0 : Byte) ≠ 48 by decide)
          · exact (hm r hr').2.1
      simp only [this, Res.ok_bind, securedBy, akms_same hsame]
      rfl
  have htw : getFirstElement els oweKind = .ok c.twin := by
    cases ht : c.twin with
    | none =>
      rw [c07_first_none h oweKind (by simp [oweKind, oweId]) (fun q => readOWE_safe.ne_panic q)]
      intro p hp
      exfalso
      have hx : ∃ r : RawElement, r ∈ c.around.before.map Prod.snd ++ ⟨0, c.name.bytes⟩ :: c.around.after.map Prod.snd ∧
          r.tlv_type = 221 ∧ [0x50, 0x6f, 0x9a, 0x1c] <+: r.slice := ⟨_, hp, rfl, List.prefix_append _ _⟩
      obtain ⟨r, hr', hx⟩ := hx
      simp only [OweCell.around, ht, Option.toList_none, List.map_nil, List.append_nil, List.map_append, List.mem_append,
        List.mem_cons] at hr'
      rcases hr' with hr' | rfl | ((hr' | hr') | hr') | hr'
      · exact (hb r hr').2.2 hx
      · exact absurd hx.1 (show ¬ (0 : Byte) = 221 by decide)
      · exact (hm r hr').2.2 hx
      · obtain ⟨p, hp, rfl⟩ := List.mem_map.1 hr'
        obtain ⟨e, -, rfl⟩ := List.mem_map.1 hp
        exact absurd hx.1 (show ¬ (48 : Byte) = 221 by decide)
      · exact (hm' r hr').2.2 hx
      · exact (ha r hr').2.2 hx
    | some t =>
      obtain ⟨h1, h2⟩ := hc.twin t ht
      refine (c20_owe_read_partial t (by omega) h2).found els (c.before.map Prod.snd ++ ⟨0, c.name.bytes⟩ ::
        ((c.mid ++ (c.rsn.toList.map fun e => ((.typed (rsnElem e) : ChainItem), (⟨48, rsnWire 1 e⟩ : RawElement))) ++
          c.mid').map Prod.snd)) (c.after.map Prod.snd) ?_ ?_
      · simp only [OweCell.around, ht, Option.toList_some, List.map_cons, List.map_nil, List.map_append,
          List.append_assoc, List.cons_append, List.nil_append] at h ⊢
        exact h
      · intro r hr' hx
        simp only [List.map_append, List.mem_append, List.mem_cons] at hr'
        rcases hr' with hr' | rfl | (hr' | hr') | hr'
        · exact (hb r hr').2.2 hx
        · exact absurd hx.1 (show ¬ (0 : Byte) = 221 by decide)
        · exact (hm r hr').2.2 hx
        · obtain ⟨p, hp, rfl⟩ := List.mem_map.1 hr'
          obtain ⟨e, -, rfl⟩ := List.mem_map.1 hp
          exact absurd hx.1 (show ¬ (48 : Byte) = 221 by decide)
        · exact (hm' r hr').2.2 hx
  unfold learnFrom
  simp only [hname, Res.ok_bind]
  cases hf1 : getFirstElement els rsnKind with
  | panic => rw [hf1] at hsec; cases hsec
  | err e => rw [hf1] at hsec; cases hsec
  | ok o =>
    rw [hf1] at hsec
    simp only [Res.ok_bind] at hsec ⊢
    rw [hsec]
    simp only [Res.ok_bind, htw]
    rfl

variable [Crc32]

/-- A station learns from a beacon or probe response exactly what the network says.  Partial: see `OweCell.Fine`; the RSN
element has no PMKIDs and its fields are present in order (`c99_preset_lost`). -/
theorem c99_learned_partial (resp : Bool) (c : OweCell) (hc : c.Fine) (fcs : Bool) :
    ∃ size, ∀ buf : Bytes, size ≤ buf.length → ∃ frame, c.send resp fcs buf = .ok frame ∧
      learn fcs frame = .ok (some c.said) := by
  have hn : SSIDLikeElement.new c.name = some ⟨c.name⟩ := (c10_new _ _).2 ⟨hc.name, rfl⟩
  obtain ⟨x, hx⟩ := announced_item c.name _ hn
  obtain ⟨size, hA⟩ := announce_arrives resp c.around (around_fine c hc) _ _ x hx hc.lone fcs
  refine ⟨size, fun buf hb => ?_⟩
  obtain ⟨frame, els, h1, ⟨j, h2⟩, h3⟩ := hA buf hb
  refine ⟨frame, by rw [OweCell.send, announce, hn]; exact h1, ?_⟩
  have := learned c hc els h3
  simp only [learn, h2]
  rw [show c.around.header.bssid = c.header.bssid from rfl, this]
  rfl

/-- Nothing panics, unless a check sequence is expected in fewer than four bytes. -/
theorem c99_panics_iff (fcs : Bool) (frame : Bytes) : learn fcs frame = .panic ↔ fcs = true ∧ frame.length < 4 := by
  have hm := (match_mgmt readBeaconLike readBeaconLike_safe (fun r => (r.1.bssid, r.2.elements)) [.Beacon, .ProbeResponse]
    (by decide) fcs frame).1
  simp only [List.map_cons, List.map_nil] at hm
  rw [← hm]
  unfold learn
  split
  · rename_i h; simp [h]
  · rename_i h; simp [h]
  · rename_i j bs els h
    simp only [h, reduceCtorEq, iff_false]
    obtain ⟨l, hl⟩ := learn_total bs els
    rw [hl]
    simp [Res.map]

/-! ## Who is led where -/

private theorem learn_other (fcs : Bool) (f : Bytes) (h : (OweAir.other f).Fine fcs) : learn fcs f = .ok none := by
  obtain ⟨h1, h2, h3⟩ := h
  obtain ⟨e, he⟩ := (match_mgmt readBeaconLike readBeaconLike_safe (fun r => (r.1.bssid, r.2.elements))
    [.Beacon, .ProbeResponse] (by decide) fcs f).2.1 (by
      intro k hk
      simp only [List.mem_cons, List.not_mem_nil, or_false] at hk
      rcases hk with rfl | rfl
      · exact h1
      · exact h2) h3
  simp only [List.map_cons, List.map_nil] at he
  simp only [learn, he]

private theorem learn_all (fcs : Bool) (l : List OweAir) (hl : ∀ x ∈ l, x.Fine fcs) :
    ∃ size, ∀ buf : Bytes, size ≤ buf.length → ∃ frames, OweAir.sendAll fcs buf l = .ok frames ∧
      learnAll fcs frames = .ok ((OweAir.cells l).map OweCell.said) := by
  induction l with
  | nil => exact ⟨0, fun _ _ => ⟨[], rfl, rfl⟩⟩
  | cons x l ih =>
    obtain ⟨size, ih⟩ := ih fun y hy => hl y (by simp [hy])
    have hx := hl x (by simp)
    cases x with
    | other f =>
      refine ⟨size, fun buf hb => ?_⟩
      obtain ⟨frames, h1, h2⟩ := ih buf hb
      refine ⟨f :: frames, by simp only [OweAir.sendAll, h1, Res.ok_bind]; rfl, ?_⟩
      simp only [learnAll, learn_other fcs f hx, h2, Res.ok_bind, OweAir.cells]
      rfl
    | cell r c =>
      obtain ⟨size', hA⟩ := c99_learned_partial r c hx fcs
      refine ⟨max size size', fun buf hb => ?_⟩
      obtain ⟨frames, h1, h2⟩ := ih buf (by omega)
      obtain ⟨f, h3, h4⟩ := hA buf (by omega)
      refine ⟨f :: frames, by simp only [OweAir.sendAll, h1, h3, Res.ok_bind]; rfl, ?_⟩
      simp only [learnAll, h4, h2, Res.ok_bind, OweAir.cells]
      rfl

omit [Crc32] in
private theorem leads_iff (cells : List OweCell) (o : OweCell) (hne : slack ≤ o.name.bytes.length) (b : Mac) (n : Str) :
    o.said.leads (cells.map OweCell.said) = some (b, n) ↔
      ∃ e ∈ cells, IsTwin o e ∧ b = e.header.bssid ∧ ∃ t, o.twin = some t ∧ n = t.ssid := by
  have hsaid : o.said.name = some o.name := if_pos hne
  cases hr : o.rsn with
  | some r =>
    have h1 : o.said.secured = some (r.akm_list.getD []) := by simp [OweCell.said, hr]
    simp [Learned.leads, h1, IsTwin, hr]
  | none =>
    have h1 : o.said.secured = none := by simp [OweCell.said, hr]
    cases ht : o.twin with
    | none =>
      have h2 : o.said.twin = none := ht
      simp [Learned.leads, h1, h2, IsTwin, ht]
    | some t =>
      have h2 : o.said.twin = some t := ht
      -- the test on what is learned is the relation between networks
      have htest : ∀ e : OweCell, (e.said.bssid = t.bssid ∧ .OpportunisticWirelessEncryption ∈ e.said.secured.getD [] ∧
          (e.said.twin.map fun t' => (t'.bssid, some t'.ssid)) = some (o.said.bssid, o.said.name)) ↔ IsTwin o e := by
        intro e
        have hb : e.said.bssid = e.header.bssid := rfl
        have hs : e.said.secured = e.rsn.map fun e => e.akm_list.getD [] := rfl
        have htw : e.said.twin = e.twin := rfl
        rw [hb, hs, htw, hsaid]
        constructor
        · rintro ⟨g1, g2, g3⟩
          obtain ⟨t', ht', g4⟩ := Option.map_eq_some_iff.1 g3
          simp only [Prod.mk.injEq, Option.some.injEq] at g4
          refine ⟨hr, ?_, t, t', ht, ht', g1.symm, g4.1, g4.2⟩
          cases hre : e.rsn with
          | none => rw [hre] at g2; simp at g2
          | some r =>
            rw [hre] at g2
            cases hl : r.akm_list with
            | none => simp [hl] at g2
            | some l => exact ⟨r, l, rfl, hl, by simpa [hl] using g2⟩
        · rintro ⟨-, ⟨r, l, g1, g2, g3⟩, t1, t', g4, g5, g6, g7, g8⟩
          rw [ht] at g4
          cases g4
          refine ⟨g6.symm, by simpa [g1, g2] using g3, ?_⟩
          rw [g5]
          simp only [Option.map_some, g7, g8]
          rfl
      simp only [Learned.leads, h1, h2]
      constructor
      · intro h
        obtain ⟨g, hg, h⟩ := Option.map_eq_some_iff.1 h
        have hp := List.find?_some hg
        obtain ⟨e, he, rfl⟩ := List.mem_map.1 (List.mem_of_find?_eq_some hg)
        simp only [Prod.mk.injEq] at h
        exact ⟨e, he, (htest e).1 (of_decide_eq_true hp), h.1.symm, t, rfl, h.2.symm⟩
      · rintro ⟨e, he, htw, rfl, t1, h3, rfl⟩
        cases h3
        cases hf : (cells.map OweCell.said).find? fun g => decide (g.bssid = t.bssid ∧
            .OpportunisticWirelessEncryption ∈ g.secured.getD [] ∧
            (g.twin.map fun t' => (t'.bssid, some t'.ssid)) = some (o.said.bssid, o.said.name)) with
        | none =>
          have := List.find?_eq_none.1 hf e.said (List.mem_map.2 ⟨e, he, rfl⟩)
          exact absurd (decide_eq_true ((htest e).2 htw)) this
        | some g =>
          have hd := List.find?_some hf
          have hp := of_decide_eq_true hd
          have hb : t.bssid = e.header.bssid := ((htest e).2 htw).1.symm
          rw [Option.map_some, hp.1, hb]

/-- A station learns the networks on the air, and an open one leads exactly to its encrypted twin, under the name given
for it, if that is on the air too; whatever other networks and frames there are.  Partial as before; under the strict rule
of `scroll` the open network has a name. -/
theorem c99_leads_partial (fcs : Bool) (l : List OweAir) (hl : ∀ x ∈ l, x.Fine fcs) :
    ∃ size, ∀ buf : Bytes, size ≤ buf.length → ∃ frames heard, OweAir.sendAll fcs buf l = .ok frames ∧
      learnAll fcs frames = .ok heard ∧ heard = (OweAir.cells l).map OweCell.said ∧
      ∀ o ∈ OweAir.cells l, slack ≤ o.name.bytes.length → ∀ b n, o.said.leads heard = some (b, n) ↔
        ∃ e ∈ OweAir.cells l, IsTwin o e ∧ b = e.header.bssid ∧ ∃ t, o.twin = some t ∧ n = t.ssid := by
  obtain ⟨size, hA⟩ := learn_all fcs l hl
  refine ⟨size, fun buf hb => ?_⟩
  obtain ⟨frames, h1, h2⟩ := hA buf hb
  exact ⟨frames, _, h1, h2, rfl, fun o _ hne b n => leads_iff _ o hne b n⟩

/-- Whatever is received, a station learns only what a beacon or probe response says: the network is the third address, a
name is an element 0, security needs an element 48 of version 1, and the twin is a whole transition element. -/
theorem c99_learned_only (fcs : Bool) (frame : Bytes) (l : Learned) (h : learn fcs frame = .ok (some l)) :
    ∃ (h : ManagementFrameHeader) (b0 : Byte) (fixed els : Bytes) (raws : List RawElement),
      frame = withFcs fcs (b0 :: h.fcf_flags.bits :: (mgmtHeaderWire h ++ (fixed ++ els))) ∧
      (b0.toNat / 4 % 4, b0.toNat / 16) ∈ [(0, 8), (0, 5)] ∧ h.bssid = l.bssid ∧ fixed.length = 12 ∧
      ElementsOf els raws ∧ (∀ name, l.name = some name → ⟨0, name.bytes⟩ ∈ raws) ∧
      (l.secured ≠ none → ∃ p, ⟨48, [1, 0] ++ p⟩ ∈ raws) ∧
      ∀ t, l.twin = some t → ∃ rest, ⟨221, [0x50, 0x6f, 0x9a, 0x1c] ++ (oweWire t ++ rest)⟩ ∈ raws ∧
        (t.band_and_channel_info = none → rest.length < 2) := by
  have hm := (match_mgmt readBeaconLike readBeaconLike_safe (fun r => (r.1.bssid, r.2.elements)) [.Beacon, .ProbeResponse]
    (by decide) fcs frame).2.2
  simp only [List.map_cons, List.map_nil] at hm
  unfold learn at h
  split at h
  · cases h
  · cases h
  · rename_i j bs els hr
    obtain ⟨inner, hin, k, hk, hkind, ⟨hd, body⟩, n, hread, hx⟩ := hm _ _ hr
    simp only [Prod.mk.injEq] at hx
    obtain ⟨rfl, rfl⟩ := hx
    have hbr : Bounded readBeaconLike := by
      intro inp b k h
      obtain ⟨_, _, _, _, h, _⟩ := c22_beacon.parse inp b k h
      omega
    obtain ⟨b0, rest, m, h1, h2, h3, h4, -⟩ := c23_parse _ hbr false inner hd body n hread
    obtain ⟨fx, h5, h6, -⟩ := c22_beacon.parse _ _ _ h4
    obtain ⟨raws, hraws⟩ := elementsOf_exists body.elements
    obtain ⟨s, hs⟩ := c57_ssid_total body.elements
    obtain ⟨e, he⟩ := (c08_lookup_safe body.elements rsnKind (by simp [rsnKind]) fun q => readRsn_safe.ne_panic q).2.1
    obtain ⟨t, ht⟩ := (c08_lookup_safe body.elements oweKind (by simp [oweKind, oweId]) fun q => readOWE_safe.ne_panic q).2.1
    have hsec : ∃ x, securedBy e = .ok x ∧ (e = none → x = none) := by
      cases e with
      | none => exact ⟨_, rfl, fun _ => rfl⟩
      | some e =>
        obtain ⟨l, hl⟩ := akms_safe e
        exact ⟨some l, by simp only [securedBy, hl]; rfl, by simp⟩
    obtain ⟨x, hx, hxn⟩ := hsec
    have hl : l = ⟨hd.bssid, s, x, t⟩ := by
      simp only [learnFrom, hs, he, ht, hx, Res.ok_bind, pure, Res.map, Res.ok.injEq, Option.some.injEq] at h
      exact h.symm
    subst hl
    refine ⟨hd, b0, fx, body.elements, raws, ?_, ?_, rfl, h6, hraws, ?_, ?_, ?_⟩
    · rw [hin, h1, h5]
      rfl
    · obtain ⟨c0, c1, r', hc, hk1, hk2, -⟩ := hkind
      rw [h1] at hc
      simp only [withFcs, Bool.false_eq_true, if_false, List.cons.injEq] at hc
      obtain ⟨rfl, -⟩ := hc
      rw [hk1, hk2]
      simp only [List.mem_cons, List.not_mem_nil, or_false] at hk
      rcases hk with rfl | rfl <;> simp [kindNumber]
    · rintro name hname
      simp only at hname
      rw [hname] at hs
      obtain ⟨pre, post, hp, -⟩ := (c57_ssid_some hraws name).1 hs
      rw [hp]
      simp
    · intro hne
      cases e with
      | none => exact absurd (hxn rfl) hne
      | some e =>
        obtain ⟨pre, post, p, hp, hpar, -⟩ := (c07_first_some hraws rsnKind (by simp [rsnKind])
          (fun q => readRsn_safe.ne_panic q) e).1 he
        have hv : ∃ rest, p = [1, 0] ++ rest := by
          by_cases hv : ∃ rest, p = [1, 0] ++ rest
          · exact hv
          · obtain ⟨er, her⟩ := c17_version p fun rest hr => hv ⟨rest, hr⟩
            simp [parsed, rsnKind, her] at hpar
        obtain ⟨rest, rfl⟩ := hv
        exact ⟨rest, by rw [hp]; exact List.mem_append_right _ List.mem_cons_self⟩
    · rintro t' ht'
      simp only at ht'
      subst ht'
      obtain ⟨pre, post, p, hp, hpar, -⟩ := (c07_first_some hraws oweKind (by simp [oweKind, oweId])
        (fun q => readOWE_safe.ne_panic q) t').1 ht
      have hrd : ∃ k, readOWE p = .ok (t', k) := by
        simp only [parsed, oweKind] at hpar
        split at hpar
        · cases hpar
        · split at hpar
          · rename_i a k hk
            simp only [Option.some.injEq] at hpar
            subst hpar
            exact ⟨_, hk⟩
          · cases hpar
      obtain ⟨k, hk⟩ := hrd
      obtain ⟨rest, rfl, -, -, hb⟩ := c20_owe_parse p t' k hk
      exact ⟨rest, by rw [hp]; exact List.mem_append_right _ List.mem_cons_self, hb⟩

/-! ## Where it fails -/

omit [Crc32] in
/-- Violation: the ready-made RSN element `OWE` says that it is four bytes longer than what is written.  Whoever reads the
element takes the first four bytes of the next one as its end, and goes on behind them. -/
theorem c99_preset_wrong (rest : Bytes) (hr : 4 ≤ rest.length) :
    ∃ bytes, Emits (rsnElem .OWE).writeWrapped bytes 22 ∧ bytes.length = 22 ∧
      readRawElement (bytes ++ rest) = .ok (⟨48, bytes.drop 2 ++ rest.take 4⟩, 26) := by
  have hs := slack_le
  have hw := (writeTLV_emits_any 48 ⟨writeRsnLists .OWE, 24⟩ _ _ c83_owe_bytes (by show 24 ≤ 255; omega)).pwrite0
  refine ⟨_, hw.cast rfl (by omega), by simp, ?_⟩
  have h24 : ([1, 0, 0x00, 0x0f, 0xac, 4, 1, 0, 0x00, 0x0f, 0xac, 4, 1, 0, 0x00, 0x0f, 0xac, 18, 0xc0, 0] ++ rest.take 4 :
      Bytes).length = 24 := by simp; omega
  have key := readRawElement_tlv ⟨48, [1, 0, 0x00, 0x0f, 0xac, 4, 1, 0, 0x00, 0x0f, 0xac, 4, 1, 0, 0x00, 0x0f, 0xac, 18, 0xc0, 0]
    ++ rest.take 4⟩ (rest.drop 4) (by rw [h24]; omega) (by rw [h24]; omega)
  rw [tlv_length] at key
  simp only [tlv, List.cons_append, List.nil_append, List.take_append_drop] at key h24
  rw [h24] at key
  exact key

omit [ScrollRule] [Crc32] in
/-- Violation: so an encrypted twin with this element is not found.  The two networks are each other's twins and both are
heard, but the element by which the encrypted one names the open one is lost; with the suite for group management frames
taken out of the constant it is found. -/
theorem c99_preset_lost (s : Bool) :
    letI : ScrollRule := ⟨s⟩
    letI : Crc32 := ⟨fun _ => 0⟩
    let a : Mac := ⟨[2, 0, 0, 0, 0, 1], rfl⟩
    let b : Mac := ⟨[2, 0, 0, 0, 0, 2], rfl⟩
    let h (m : Mac) : ManagementFrameHeader := ⟨⟨0⟩, 0, Arr.zero 6, Arr.zero 6, m, ⟨0⟩, none⟩
    let o : OweCell := ⟨h a, ⟨0, 100, ⟨1⟩, ()⟩, ⟨[0x61], rfl⟩, none, some ⟨b, ⟨[0x62], rfl⟩, none⟩, [], [], [], []⟩
    let e (r : RsnElement.OfLists) : OweCell :=
      ⟨h b, ⟨0, 100, ⟨1⟩, ()⟩, ⟨[], rfl⟩, some r, some ⟨a, ⟨[0x61], rfl⟩, none⟩, [], [], [], []⟩
    let goes (r : RsnElement.OfLists) : Res (Option (Mac × Str)) := do
      let fs ← OweAir.sendAll false (List.replicate 120 0) [.cell false o, .cell false (e r)]
      let heard ← learnAll false fs
      pure (o.said.leads heard)
    IsTwin o (e .OWE) ∧ goes .OWE = .ok none ∧
      goes { RsnElement.OWE with group_management_cipher_suite := none } = .ok (some (b, ⟨[0x62], rfl⟩)) := by
  cases s <;> exact ⟨⟨rfl, ⟨_, _, rfl, rfl, by decide⟩, _, _, rfl, rfl, rfl, rfl, rfl⟩, by decide +kernel, by decide +kernel⟩

omit [Crc32] in
/-- Violation: a name may have any octets (9.4.2.2), but a transition element with a name that is not UTF-8 is lost.  The
station learns of no twin and stays in the open network. -/
theorem c99_octets_lost (m : Mac) (p rest : Bytes) (hp : IsNetworkName p) (hu : ¬ IsUtf8 p) (els : Bytes)
    (pre post : List RawElement) (h : ElementsOf els (pre ++
      ⟨221, [0x50, 0x6f, 0x9a, 0x1c] ++ (m.val ++ BitVec.ofNat 8 p.length :: (p ++ rest))⟩ :: post))
    (ho : ∀ r ∈ pre ++ post, Elsewise r ∨ r.tlv_type = 0 ∨ r.tlv_type = 48) (bssid : Mac) :
    ∃ l, learnFrom bssid els = .ok l ∧ l.twin = none ∧ ∀ heard, l.leads heard = none := by
  have hno : getFirstElement els oweKind = .ok none := by
    rw [c07_first_none h oweKind (by simp [oweKind, oweId]) (fun q => readOWE_safe.ne_panic q)]
    intro q hq
    have hx : ∀ r : RawElement, r ∈ pre ++ post → ¬ (r.tlv_type = 221 ∧ [0x50, 0x6f, 0x9a, 0x1c] <+: r.slice) := by
      intro r hr hx
      rcases ho r hr with h | h | h
      · exact h.2.2 hx
      · rw [h] at hx; exact absurd hx.1 (by decide)
      · rw [h] at hx; exact absurd hx.1 (by decide)
    have hq' : rawOf oweKind.id q = ⟨221, [0x50, 0x6f, 0x9a, 0x1c] ++ (m.val ++ BitVec.ofNat 8 p.length :: (p ++ rest))⟩ := by
      simp only [List.mem_append, List.mem_cons] at hq
      rcases hq with hq | hq | hq
      · exact absurd ⟨rfl, List.prefix_append _ _⟩ (hx _ (List.mem_append_left _ hq))
      · exact hq
      · exact absurd ⟨rfl, List.prefix_append _ _⟩ (hx _ (List.mem_append_right _ hq))
    have hq2 : q = m.val ++ BitVec.ofNat 8 p.length :: (p ++ rest) := by
      have := congrArg RawElement.slice hq'
      exact List.append_cancel_left this
    subst hq2
    simp only [parsed, oweKind]
    split
    · rfl
    · split
      · rename_i t k hk
        exfalso
        obtain ⟨r, hr, -, hl, -⟩ := c20_owe_parse _ t k hk
        simp only [oweWire, List.append_assoc, List.cons_append] at hr
        obtain ⟨h1, h2⟩ := List.append_inj hr (by simp)
        simp only [List.cons.injEq] at h2
        obtain ⟨h2, h3⟩ := h2
        have hlen : p.length = t.ssid.bytes.length := by
          have := congrArg BitVec.toNat h2
          rw [IsNetworkName] at hp
          simp at this
          omega
        obtain ⟨h4, -⟩ := List.append_inj h3 hlen
        exact hu (h4 ▸ (utf8Valid_iff _).1 t.ssid.valid)
      · rfl
  obtain ⟨l, hl⟩ := learn_total bssid els
  have ht : l.twin = none := by
    obtain ⟨s, hs⟩ := c57_ssid_total els
    obtain ⟨e, he⟩ := (c08_lookup_safe els rsnKind (by simp [rsnKind]) fun q => readRsn_safe.ne_panic q).2.1
    simp only [learnFrom, hs, he, hno, Res.ok_bind] at hl
    cases hx : securedBy e with
    | panic => rw [hx] at hl; cases hl
    | err e => rw [hx] at hl; cases hl
    | ok x =>
      simp only [hx, Res.ok_bind, pure, Res.ok.injEq] at hl
      rw [← hl]
  refine ⟨l, hl, ht, fun heard => ?_⟩
  unfold Learned.leads
  rw [ht]
  split
  · rename_i h _
    cases ‹none = some _›
  · rfl

omit [Crc32] in
/-- Violation: a transition element is accepted with a name of more than 32 bytes, which no network can have (9.4.2.2);
the station is led to a name for which it can make no SSID element. -/
theorem c99_long_wrong (t : OWETransitionModeElement) (h : 32 < t.ssid.bytes.length) (hl : t.ssid.bytes.length ≤ 242) :
    (∃ x, VendorWrites (oweElem t) [0x50, 0x6f, 0x9a, 0x1c] (oweWire t) x) ∧
    VendorReads oweKind t [0x50, 0x6f, 0x9a, 0x1c] (oweWire t) ∧ SSIDLikeElement.new t.ssid = none := by
  have hs := slack_le
  refine ⟨⟨_, c20_owe_write t ?_⟩, c20_owe_read_partial t (by omega) (fun _ => by omega), ?_⟩
  · obtain ⟨m, s, b⟩ := t
    cases b <;> simp [oweWire] at * <;> omega
  · cases hn : SSIDLikeElement.new t.ssid with
    | none => rfl
    | some e => exact absurd ((c10_new _ _).1 hn).1 (by omega)

/-! ## Concrete cases -/

private def exampleHeader (m : Mac) : ManagementFrameHeader := ⟨⟨0⟩, 0, Arr.zero 6, Arr.zero 6, m, ⟨0⟩, none⟩

private def exampleMac (n : Byte) : Mac := ⟨[2, 0, 0, 0, 0, n], rfl⟩

/-- An open network "a". -/
private def exampleOpen : OweCell where
  header := exampleHeader (exampleMac 1)
  fields := ⟨0, 100, ⟨1⟩, ()⟩
  name := ⟨[0x61], rfl⟩
  rsn := none
  twin := some ⟨exampleMac 2, ⟨[0x62], rfl⟩, some ⟨81, 6⟩⟩
  before := []
  mid := [(.raw ⟨1, [0x82]⟩, ⟨1, [0x82]⟩)]
  mid' := []
  after := []

/-- Its twin "b", and a vendor's element. -/
private def exampleTwin : OweCell where
  header := exampleHeader (exampleMac 2)
  fields := ⟨0, 100, ⟨1⟩, ()⟩
  name := ⟨[], rfl⟩
  rsn := some ⟨some .Ccmp128, some [.Ccmp128], some [.OpportunisticWirelessEncryption],
    some (RsnCapabilities.new.withMfpConfig .Required), none, none⟩
  twin := some ⟨exampleMac 1, ⟨[0x61], rfl⟩, none⟩
  before := []
  mid := []
  mid' := []
  after := [(.raw ⟨221, [0, 0x50, 0xf2, 2]⟩, ⟨221, [0, 0x50, 0xf2, 2]⟩)]

/-- A network with a password. -/
private def exampleThird : OweCell where
  header := exampleHeader (exampleMac 3)
  fields := ⟨0, 100, ⟨1⟩, ()⟩
  name := ⟨[0x63], rfl⟩
  rsn := some .WPA2_PERSONAL
  twin := none
  before := []
  mid := []
  mid' := []
  after := []

omit [Crc32] in
private theorem example_fine : exampleOpen.Fine ∧ exampleTwin.Fine ∧ exampleThird.Fine := by
  have hs := slack_le
  have hht : ∀ m, HtConsistent (exampleHeader m) := fun m => (show none.isSome = (FCFFlags.mk 0).order by decide)
  refine ⟨?_, ?_, ?_⟩
  · constructor
    · exact hht _
    · decide
    · intro e he; cases he
    · intro t ht
      cases ht
      exact ⟨by decide, by intro h; cases h⟩
    · intro p hp
      have : p = (.raw ⟨1, [0x82]⟩, ⟨1, [0x82]⟩) := by simpa [exampleOpen] using hp
      subst this
      exact ⟨⟨_, .raw _ (by decide)⟩, by simp [Elsewise]⟩
    · intro p hp
      simp [exampleOpen, OweCell.around] at hp
      subst hp
      simp; omega
    · simp [exampleOpen, OweCell.around]
  · constructor
    · exact hht _
    · decide
    · intro e he
      cases he
      exact ⟨by simp [RsnWf], by simp [RsnSmall], by
        simp [RsnCanonical, IEEE80211CipherSuiteSelector.Canonical, IEEE80211AkmType.Canonical], by simp [RsnEndOk],
        by simp, by decide⟩
    · intro t ht
      cases ht
      exact ⟨by decide, fun _ => by simp; omega⟩
    · intro p hp
      have : p = (.raw ⟨221, [0, 0x50, 0xf2, 2]⟩, ⟨221, [0, 0x50, 0xf2, 2]⟩) := by simpa [exampleTwin] using hp
      subst this
      exact ⟨⟨_, .raw _ (by decide)⟩, by simp [Elsewise]⟩
    · intro p hp
      simp [exampleTwin, OweCell.around] at hp
      subst hp
      simp; omega
    · simp [exampleTwin, OweCell.around]
  · constructor
    · exact hht _
    · decide
    · intro e he
      cases he
      exact ⟨by simp [RsnWf, RsnElement.WPA2_PERSONAL], by simp [RsnSmall, RsnElement.WPA2_PERSONAL], by
        simp [RsnCanonical, RsnElement.WPA2_PERSONAL, IEEE80211CipherSuiteSelector.Canonical, IEEE80211AkmType.Canonical],
        by simp [RsnEndOk, RsnElement.WPA2_PERSONAL], by simp [RsnElement.WPA2_PERSONAL], by decide⟩
    · intro t ht; cases ht
    · intro p hp
      simp [exampleThird] at hp
    · intro p hp
      simp [exampleThird, OweCell.around] at hp
      subst hp
      simp [rsnWire]; omega
    · simp [exampleThird, OweCell.around]

/-- The open network and its twin, the network with a password, and a data frame are on the air. -/
example (fcs : Bool) : ∃ size, ∀ buf : Bytes, size ≤ buf.length → ∃ frames heard,
    OweAir.sendAll fcs buf [.cell false exampleThird, .cell false exampleTwin, .other [8, 0, 1, 2, 3, 4],
      .cell true exampleOpen] = .ok frames ∧
    learnAll fcs frames = .ok heard ∧ heard.length = 3 ∧
    exampleOpen.said.leads heard = some (exampleMac 2, ⟨[0x62], rfl⟩) := by
  have hs := slack_le
  obtain ⟨h1, h2, h3⟩ := example_fine
  obtain ⟨size, hA⟩ := c99_leads_partial fcs [.cell false exampleThird, .cell false exampleTwin,
    .other [8, 0, 1, 2, 3, 4], .cell true exampleOpen] (by
      intro x hx
      simp only [List.mem_cons, List.not_mem_nil, or_false] at hx
      rcases hx with rfl | rfl | rfl | rfl
      · exact h3
      · exact h2
      · refine ⟨?_, ?_, by simp⟩
        all_goals
          rintro ⟨b0, b1, r, h, h1, -⟩
          cases h
          exact absurd h1 (by decide)
      · exact h1)
  refine ⟨size, fun buf hb => ?_⟩
  obtain ⟨frames, heard, g1, g2, g3, g4⟩ := hA buf hb
  refine ⟨frames, heard, g1, g2, by rw [g3]; rfl, (g4 exampleOpen (by simp [OweAir.cells]) hs _ _).2
    ⟨exampleTwin, by simp [OweAir.cells], ⟨rfl, ⟨_, _, rfl, rfl, by decide⟩, _, _, rfl, rfl, rfl, rfl, rfl⟩, rfl, _, rfl, rfl⟩⟩

omit [ScrollRule] [Crc32] in
/-- A name for `c99_octets_lost` and one for `c99_long_wrong`. -/
example : IsNetworkName [0xe9] ∧ ¬ IsUtf8 [0xe9] ∧ ∃ s : Str, 32 < s.bytes.length ∧ s.bytes.length ≤ 242 :=
  ⟨by simp [IsNetworkName], fun h => absurd ((utf8Valid_iff _).2 h) (by decide), ⟨List.replicate 33 0x61, by decide⟩,
    by decide, by decide⟩

end Verif
