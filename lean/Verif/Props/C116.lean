import Verif.Props.C106
/-!
# C116: messages of vendors arrive among those of others

A vendor puts its own messages into vendor specific elements (9.4.2.25), which begin with the identifier of the vendor.  A message that
is longer than an element is cut, and its pieces stand in several elements in their order.  Other vendors do the same in the same frames.
Sender and receiver are not in the crate; they are written here with the functions of the crate.
-/
namespace Verif

namespace Spec

/-- The pieces that a vendor says in a frame: of each element 221 that begins with its identifier, what follows. -/
def vendorPieces (vendor : Bytes) (raws : List RawElement) : List Bytes :=
  raws.filterMap fun r => if r.tlv_type.toNat = 221 ∧ vendor <+: r.slice then some (r.slice.drop vendor.length) else none

/-- The message: nothing if there is no piece. -/
def vendorMessage (vendor : Bytes) (raws : List RawElement) : Option Bytes :=
  if vendorPieces vendor raws = [] then none else some (vendorPieces vendor raws).flatten

/-! ## Sender and receiver, with the functions of the crate -/

/-- A message in pieces of at most `n` octets. -/
def cutMessage (n : Nat) (message : Bytes) : List Bytes :=
  if n = 0 ∨ message = [] then [] else message.take n :: cutMessage n (message.drop n)
termination_by message.length
decreasing_by
  rename_i h
  have : message ≠ [] := fun e => h (.inr e)
  have := List.length_pos_iff.2 this
  simp
  omega

/-- The pieces of those of a list of elements that begin with the identifier. -/
def keepPieces (vendor : Bytes) : List Bytes → Res (List Bytes)
  | [] => .ok []
  | p :: l => do
    let x ← getPayloadIfPrefixMatches p vendor
    let r ← keepPieces vendor l
    pure (x.toList ++ r)

variable [ScrollRule] [Crc32]

omit [Crc32] in
/-- A piece as an element of the crate (`new_prefixed`), and how it stands in the frame. -/
def pieceItem (vendor piece : Bytes) : ChainItem × RawElement :=
  (.typed (vendorElem (prefixedVendorPayload vendor ⟨writeBytes piece, piece.length⟩)), ⟨221, vendor ++ piece⟩)

omit [Crc32] in
/-- The elements of a message. -/
def messageItems (vendor message : Bytes) : List (ChainItem × RawElement) :=
  (cutMessage (255 - vendor.length) message).map (pieceItem vendor)

omit [Crc32] in
/-- The message in the elements of a frame. -/
def messageIn (vendor : Bytes) (els : Bytes) : Res (Option Bytes) := do
  let l ← getMatchingElements els vendorKind
  let pieces ← keepPieces vendor l
  pure (if pieces.isEmpty then none else some pieces.flatten)

/-- In a frame: of which network, and the message. -/
def messageHeard (vendor : Bytes) (fcs : Bool) (frame : Bytes) : Res (Option (Mac × Option Bytes)) :=
  match matchFrames frame (if fcs then some true else none)
    [armOf MgmtKind.Beacon.frame (readMgmtFrame readBeaconLike) fun r => (r.1.bssid, r.2.elements),
      armOf MgmtKind.ProbeResponse.frame (readMgmtFrame readBeaconLike) fun r => (r.1.bssid, r.2.elements)] with
  | .panic => .panic
  | .err _ => .ok none
  | .ok (_, who, els) => do
    let x ← messageIn vendor els
    pure (some (who, x))

end Spec

open Spec

/-! ## Cutting -/

/-- The pieces together are the message, none is too long and none is empty. -/
theorem c116_cut (n : Nat) (hn : 0 < n) (message : Bytes) :
    (cutMessage n message).flatten = message ∧ ∀ p ∈ cutMessage n message, p.length ≤ n ∧ p ≠ [] := by
  induction message using cutMessage.induct n with
  | case1 message h =>
    rw [cutMessage, if_pos h]
    rcases h with h | rfl
    · omega
    · exact ⟨rfl, fun p hp => by cases hp⟩
  | case2 message h ih =>
    rw [cutMessage, if_neg h]
    refine ⟨by rw [List.flatten_cons, ih.1, List.take_append_drop], fun p hp => ?_⟩
    rcases List.mem_cons.1 hp with rfl | hp
    · refine ⟨by simp; omega, fun e => ?_⟩
      have : message ≠ [] := fun e => h (.inr e)
      rw [List.take_eq_nil_iff] at e
      rcases e with e | e
      · omega
      · exact this e
    · exact ih.2 p hp

/-- No more elements than necessary: all but the last are full. -/
theorem c116_fewest (n : Nat) (hn : 0 < n) (message : Bytes) :
    (cutMessage n message).length = (message.length + n - 1) / n := by
  induction message using cutMessage.induct n with
  | case1 message h =>
    rw [cutMessage, if_pos h]
    rcases h with h | rfl
    · omega
    · simp only [List.length_nil, Nat.zero_add]
      rw [Nat.div_eq_of_lt (by omega)]
  | case2 message h ih =>
    rw [cutMessage, if_neg h, List.length_cons, ih, List.length_drop]
    have : 0 < message.length := List.length_pos_iff.2 fun e => h (.inr e)
    by_cases hl : n ≤ message.length
    · rw [show message.length + n - 1 = (message.length - n + n - 1) + n by omega, Nat.add_div_right _ hn]
    · rw [show message.length - n + n - 1 = n - 1 by omega, Nat.div_eq_of_lt (by omega),
        show message.length + n - 1 = (message.length - 1) + n by omega, Nat.add_div_right _ hn,
        Nat.div_eq_of_lt (by omega)]

private theorem kept (vendor p : Bytes) :
    getPayloadIfPrefixMatches p vendor = .ok (if vendor <+: p then some (p.drop vendor.length) else none) := by
  by_cases h : vendor <+: p
  · rw [if_pos h]
    obtain ⟨q, rfl⟩ := h
    rw [(c54_prefix (vendor ++ q) vendor _).1]
    simp
  · rw [if_neg h, (c54_prefix p vendor []).2]
    rintro ⟨q, rfl⟩
    exact h (List.prefix_append _ _)

private theorem keepPieces_eq (vendor : Bytes) (l : List Bytes) : keepPieces vendor l =
    .ok (l.filterMap fun p => if vendor <+: p then some (p.drop vendor.length) else none) := by
  induction l with
  | nil => rfl
  | cons p l ih =>
    rw [keepPieces, kept, ih, List.filterMap_cons]
    by_cases h : vendor <+: p
    · simp [h]
    · simp [h]

/-! ## The property -/

variable [ScrollRule]

/-- For all elements: exactly the message of the vendor.  (Under the strict rule of `scroll` an identifier is not empty.) -/
theorem c116_exact (vendor : Bytes) (hv : slack ≤ vendor.length) (els : Bytes) (raws : List RawElement)
    (h : ElementsOf els raws) : messageIn vendor els = .ok (vendorMessage vendor raws) := by
  have hl := h.length_le
  have h1 : getMatchingElements els vendorKind =
      .ok (raws.filterMap fun e => (contents vendorKind.id e).bind (parsed vendorKind)) := by
    rw [getMatchingElements, collectMap_of_yields h.yields _ (by omega),
      filterMapRes_ok (matchTyped_eq vendorKind (by simp [vendorKind]) (fun p => by
        simp [vendorKind, readVendorSpecificElement]))]
  have h2 : (raws.filterMap fun e => (contents vendorKind.id e).bind (parsed vendorKind)).filterMap
      (fun p => if vendor <+: p then some (p.drop vendor.length) else none) = vendorPieces vendor raws := by
    rw [List.filterMap_filterMap, vendorPieces]
    congr 1
    funext r
    by_cases ht : r.tlv_type = 221
    · have hc : contents vendorKind.id r = some r.slice := if_pos ht
      rw [hc, Option.bind_some]
      by_cases hp : vendor <+: r.slice
      · have := hp.length_le
        rw [if_pos ⟨by rw [ht]; rfl, hp⟩, parsed, if_neg (by omega)]
        simp [vendorKind, readVendorSpecificElement, hp]
      · rw [if_neg (fun h => hp h.2), parsed]
        split
        · rfl
        · simp [vendorKind, readVendorSpecificElement, hp]
    · have hc : contents vendorKind.id r = none := if_neg ht
      rw [hc, if_neg (fun h => ht (BitVec.eq_of_toNat_eq h.1))]
      rfl
  rw [messageIn, h1, Res.ok_bind, keepPieces_eq, h2, Res.ok_bind, vendorMessage]
  cases vendorPieces vendor raws with
  | nil => rfl
  | cons p l => rfl

/-- A piece that fits is an item as it stands there. -/
theorem c116_item (vendor piece : Bytes) (hl : vendor.length + piece.length ≤ 255) (hv : slack ≤ vendor.length)
    (hp : piece ≠ []) : ∃ x, ItemOf (pieceItem vendor piece).1 (pieceItem vendor piece).2 x := by
  have hsl := slack_le
  have hpos := List.length_pos_iff.2 hp
  have hw := vendorSpecific_emits _ _ _ (prefixed_emits vendor ⟨writeBytes piece, piece.length⟩ piece _ (Emits.bytes piece))
  exact ⟨_, .typed (vendorElem (prefixedVendorPayload vendor ⟨writeBytes piece, piece.length⟩)) (vendor ++ piece) _ hw
    (by simp; omega) (by simp [vendorElem, vendorSpecificElement, prefixedVendorPayload]) (by simpa [vendorElem, rawOf] using hl)⟩

private theorem own_pieces (vendor : Bytes) (l : List Bytes) :
    vendorPieces vendor ((l.map (pieceItem vendor)).map Prod.snd) = l := by
  induction l with
  | nil => rfl
  | cons p l ih =>
    rw [vendorPieces] at ih ⊢
    rw [List.map_cons, List.map_cons, List.filterMap_cons, ih, pieceItem]
    simp

omit [ScrollRule] in
private theorem no_pieces (vendor : Bytes) (l : List RawElement)
    (h : ∀ r ∈ l, r.tlv_type = 221 → ¬ vendor <+: r.slice) : vendorPieces vendor l = [] := by
  rw [vendorPieces, List.filterMap_eq_nil_iff]
  intro r hr
  rw [if_neg]
  rintro ⟨h1, h2⟩
  exact h r hr (BitVec.eq_of_toNat_eq h1) h2

omit [ScrollRule] in
private theorem pieces_append (vendor : Bytes) (a b : List RawElement) :
    vendorPieces vendor (a ++ b) = vendorPieces vendor a ++ vendorPieces vendor b := by
  simp [vendorPieces]

/-- Vendors neither of whose identifiers begins with the other do not see anything of each other. -/
theorem c116_apart (vendor other message : Bytes) (h1 : ¬ vendor <+: other) (h2 : ¬ other <+: vendor) :
    vendorPieces vendor ((messageItems other message).map Prod.snd) = [] := by
  apply no_pieces
  intro r hr _ hp
  simp only [messageItems, List.map_map, List.mem_map] at hr
  obtain ⟨p, -, rfl⟩ := hr
  simp only [Function.comp, pieceItem] at hp
  rcases Nat.le_total vendor.length other.length with hle | hle
  · exact h1 (List.prefix_of_prefix_length_le hp (List.prefix_append _ _) hle)
  · exact h2 (List.prefix_of_prefix_length_le (List.prefix_append _ _) hp hle)

variable [Crc32]

/-- For frames: a beacon or a probe response of the crate with any elements, and what a receiver makes of it.  Partial: HT control
must agree with the order bit, and under the strict rule of `scroll` neither the name nor the last element is empty. -/
theorem c116_heard_partial (vendor : Bytes) (hv : slack ≤ vendor.length) (resp : Bool) (a : Surroundings) (name : Str)
    (fcs : Bool) (h : (OnAir.network resp a name).Fine fcs) :
    ∃ size, ∀ buf : Bytes, size ≤ buf.length → ∃ frame, announce resp a name fcs buf = .ok frame ∧
      messageHeard vendor fcs frame = .ok (some (a.header.bssid, vendorMessage vendor (a.elements name))) := by
  obtain ⟨ha, hn1, hn2⟩ := h
  have hn : SSIDLikeElement.new name = some ⟨name⟩ := (c10_new _ _).2 ⟨hn2, rfl⟩
  obtain ⟨x, hx⟩ := announced_item name _ hn
  obtain ⟨size, hA⟩ := announce_arrives resp a ha _ _ x hx (fun _ => hn1) fcs
  refine ⟨size, fun buf hb => ?_⟩
  obtain ⟨frame, els, h1, ⟨j, h2⟩, h3⟩ := hA buf hb
  refine ⟨frame, by rw [announce, hn]; exact h1, ?_⟩
  simp only [messageHeard, h2, c116_exact vendor hv els _ h3, Res.ok_bind]
  rfl

/-- A message of any length, put among any other elements that are not of this vendor, arrives unchanged. -/
theorem c116_sent_partial (vendor : Bytes) (hv : slack ≤ vendor.length) (hl : vendor.length < 255) (message : Bytes)
    (hm : message ≠ []) (resp : Bool) (a : Surroundings) (name : Str) (fcs : Bool) (h : (OnAir.network resp a name).Fine fcs)
    (hs : ∀ p ∈ a.before ++ a.after, p.2.tlv_type = 221 → ¬ vendor <+: p.2.slice) :
    ∃ size, ∀ buf : Bytes, size ≤ buf.length → ∃ frame,
      announce resp ⟨a.header, a.fields, a.before, messageItems vendor message ++ a.after⟩ name fcs buf = .ok frame ∧
      messageHeard vendor fcs frame = .ok (some (a.header.bssid, some message)) := by
  obtain ⟨hf, hn⟩ := h
  obtain ⟨c1, c2⟩ := c116_cut (255 - vendor.length) (by omega) message
  have hitem : ∀ p ∈ messageItems vendor message, (∃ x, ItemOf p.1 p.2 x) ∧ p.2.tlv_type ≠ 0 ∧ vendor.length ≤ p.2.slice.length := by
    intro p hp
    obtain ⟨q, hq, rfl⟩ := List.mem_map.1 hp
    obtain ⟨e1, e2⟩ := c2 q hq
    exact ⟨c116_item vendor q (by omega) hv e2, show (221 : Byte) ≠ 0 by decide, by simp [pieceItem]⟩
  have hfine : (OnAir.network resp ⟨a.header, a.fields, a.before, messageItems vendor message ++ a.after⟩ name).Fine fcs := by
    refine ⟨⟨hf.ht, fun p hp => ?_, fun p hp => ?_⟩, hn⟩
    · simp only [List.mem_append] at hp
      rcases hp with hp | hp | hp
      · exact hf.items p (List.mem_append.2 (.inl hp))
      · exact ⟨(hitem p hp).1, (hitem p hp).2.1⟩
      · exact hf.items p (List.mem_append.2 (.inr hp))
    · simp only [List.getLast?_append] at hp
      cases hg : a.after.getLast? with
      | some q =>
        rw [hg] at hp
        cases hp
        exact hf.last _ hg
      | none =>
        rw [hg] at hp
        simp only [Option.none_or] at hp
        have := (hitem p (List.mem_of_getLast? hp)).2.2
        omega
  obtain ⟨size, hA⟩ := c116_heard_partial vendor hv resp _ name fcs hfine
  refine ⟨size, fun buf hb => ?_⟩
  obtain ⟨frame, h1, h2⟩ := hA buf hb
  refine ⟨frame, h1, ?_⟩
  have hpieces : vendorPieces vendor (Surroundings.elements ⟨a.header, a.fields, a.before, messageItems vendor message ++ a.after⟩ name) =
      cutMessage (255 - vendor.length) message := by
    have hb0 : vendorPieces vendor (a.before.map Prod.snd) = [] := no_pieces _ _ fun r hr => by
      obtain ⟨p, hp, rfl⟩ := List.mem_map.1 hr
      exact hs p (List.mem_append.2 (.inl hp))
    have ha0 : vendorPieces vendor (a.after.map Prod.snd) = [] := no_pieces _ _ fun r hr => by
      obtain ⟨p, hp, rfl⟩ := List.mem_map.1 hr
      exact hs p (List.mem_append.2 (.inr hp))
    have hn0 : vendorPieces vendor [(⟨0, name.bytes⟩ : RawElement)] = [] := no_pieces _ _ fun r hr ht => by
      obtain rfl := List.mem_singleton.1 hr
      exact absurd ht (show (0 : Byte) ≠ 221 by decide)
    show vendorPieces vendor (a.before.map Prod.snd ++ ([⟨0, name.bytes⟩] ++ (messageItems vendor message ++ a.after).map Prod.snd)) = _
    rw [pieces_append, pieces_append, List.map_append, pieces_append, hb0, hn0, ha0, messageItems, own_pieces]
    simp
  rw [h2, vendorMessage, hpieces, c1, if_neg]
  intro e
  rw [e] at c1
  exact hm c1.symm

/-- Nothing panics, unless a check sequence is expected in fewer than four bytes. -/
theorem c116_panics_iff (vendor : Bytes) (hv : slack ≤ vendor.length) (fcs : Bool) (frame : Bytes) :
    messageHeard vendor fcs frame = .panic ↔ fcs = true ∧ frame.length < 4 := by
  rw [← (match_mgmt readBeaconLike readBeaconLike_safe (fun r => (r.1.bssid, r.2.elements)) [.Beacon, .ProbeResponse]
    (by decide) fcs frame).1]
  simp only [List.map_cons, List.map_nil]
  unfold messageHeard
  split
  · rename_i hr
    simp [hr]
  · rename_i hr
    simp [hr]
  · rename_i els hr
    obtain ⟨raws, hraws⟩ := elementsOf_exists els
    rw [hr, c116_exact vendor hv _ _ hraws]
    simp [pure]

/-- Whatever is received, a message is what the elements of a beacon or probe response of this network say. -/
theorem c116_heard_only (vendor : Bytes) (hv : slack ≤ vendor.length) (fcs : Bool) (frame : Bytes) (who : Mac)
    (o : Option Bytes) (h : messageHeard vendor fcs frame = .ok (some (who, o))) :
    ∃ (h : ManagementFrameHeader) (b0 : Byte) (fixed els : Bytes) (raws : List RawElement),
      frame = withFcs fcs (b0 :: h.fcf_flags.bits :: (mgmtHeaderWire h ++ (fixed ++ els))) ∧
      (b0.toNat / 4 % 4, b0.toNat / 16) ∈ [(0, 8), (0, 5)] ∧ HtConsistent h ∧ h.bssid = who ∧ fixed.length = 12 ∧
      ElementsOf els raws ∧ o = vendorMessage vendor raws := by
  have hm := (match_mgmt readBeaconLike readBeaconLike_safe (fun r => (r.1.bssid, r.2.elements)) [.Beacon, .ProbeResponse]
    (by decide) fcs frame).2.2
  simp only [List.map_cons, List.map_nil] at hm
  unfold messageHeard at h
  split at h
  · cases h
  · cases h
  · rename_i j bs els hr
    obtain ⟨inner, hin, k, hk, hkind, ⟨hd, body⟩, n, hread, hx⟩ := hm _ _ hr
    simp only [Prod.mk.injEq] at hx
    obtain ⟨rfl, rfl⟩ := hx
    have hbr : Bounded readBeaconLike := by
      intro inp b k h
      obtain ⟨_, _, _, _, h, _⟩ := c22_beacon.parse inp b k h
      omega
    obtain ⟨b0, rest, m, h1, h2, h3, h4, -⟩ := c23_parse _ hbr false inner hd body n hread
    obtain ⟨fx, h5, h6, -⟩ := c22_beacon.parse _ _ _ h4
    obtain ⟨raws, hraws⟩ := elementsOf_exists body.elements
    rw [c116_exact vendor hv _ _ hraws, Res.ok_bind] at h
    simp only [pure, Res.ok.injEq, Option.some.injEq, Prod.mk.injEq] at h
    obtain ⟨rfl, rfl⟩ := h
    refine ⟨hd, b0, fx, body.elements, raws, ?_, ?_, h3, rfl, h6, hraws, rfl⟩
    · rw [hin, h1, h5]
      rfl
    · obtain ⟨c0, c1, r', hc, hk1, hk2, -⟩ := hkind
      rw [h1] at hc
      simp only [withFcs, Bool.false_eq_true, if_false, List.cons.injEq] at hc
      obtain ⟨rfl, -⟩ := hc
      rw [hk1, hk2]
      simp only [List.mem_cons, List.not_mem_nil, or_false] at hk
      rcases hk with rfl | rfl <;> simp [kindNumber]

/-! ## Concrete cases -/

/-- Two vendors in one frame, with an element between the pieces of the first. -/
example : vendorMessage [0, 80, 242, 4] [⟨221, [0, 80, 242, 4, 16, 74]⟩, ⟨1, [130]⟩, ⟨221, [0, 80, 242, 2, 1]⟩,
      ⟨221, [0, 80, 242, 4, 0, 1]⟩] = some [16, 74, 0, 1] ∧
    vendorMessage [0, 80, 242, 2] [⟨221, [0, 80, 242, 4, 16, 74]⟩, ⟨221, [0, 80, 242, 2, 1]⟩] = some [1] ∧
    vendorMessage [80, 111, 154] [⟨221, [0, 80, 242, 4, 16, 74]⟩] = none := by decide

/-- Concrete case: a message of 600 octets needs three elements, and arrives beside a message of a different vendor. -/
example : (cutMessage (255 - 4) (List.replicate 600 7)).length = 3 ∧
    ∃ size, ∀ buf : Bytes, size ≤ buf.length → ∃ frame,
    announce false ⟨⟨⟨0⟩, 0, Arr.zero 6, Arr.zero 6, Arr.zero 6, ⟨0⟩, none⟩, ⟨0, 100, ⟨0⟩, ()⟩, [],
      messageItems [0, 80, 242, 4] (List.replicate 600 7) ++
        [(.raw ⟨221, [0, 80, 242, 2, 1]⟩, ⟨221, [0, 80, 242, 2, 1]⟩)]⟩ ⟨[97], by decide⟩ true buf = .ok frame ∧
    messageHeard [0, 80, 242, 4] true frame = .ok (some (Arr.zero 6, some (List.replicate 600 7))) := by
  have hsl := slack_le
  refine ⟨by rw [c116_fewest _ (by omega), List.length_replicate], ?_⟩
  refine c116_sent_partial [0, 80, 242, 4] (by simp; omega) (by decide) _ ?_ false
    ⟨⟨⟨0⟩, 0, Arr.zero 6, Arr.zero 6, Arr.zero 6, ⟨0⟩, none⟩, ⟨0, 100, ⟨0⟩, ()⟩, [],
      [(.raw ⟨221, [0, 80, 242, 2, 1]⟩, ⟨221, [0, 80, 242, 2, 1]⟩)]⟩ _ true ⟨⟨?_, ?_, ?_⟩, ?_, ?_⟩ ?_
  · intro e
    have := congrArg List.length e
    rw [List.length_replicate] at this
    cases this
  · show (none : Option (Arr 4)).isSome = (⟨0⟩ : FCFFlags).order
    decide
  · intro p hp
    simp only [List.nil_append, List.mem_cons, List.not_mem_nil, or_false] at hp
    subst hp
    exact ⟨⟨_, .raw _ (by decide)⟩, show (221 : Byte) ≠ 0 by decide⟩
  · intro p hp
    cases hp
    simp; omega
  · simp; omega
  · decide
  · intro p hp _
    simp only [List.nil_append, List.mem_cons, List.not_mem_nil, or_false] at hp
    subst hp
    decide

end Verif
