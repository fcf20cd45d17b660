import Verif.Props.C03
import Verif.Props.C54
import Verif.Props.C95
/-!
# C101: the channel of a network is understood

Where a network operates is said in three elements of its beacons and probe responses: the DSSS parameter set (9.4.2.4), HT
operation (9.4.2.57) and VHT operation (9.4.2.158), to be combined by 11.38.1.  A station that does this with the fields of
the crate understands every network.  An access point that makes these elements with the crate is heard on its primary
channel only: HT operation is written with its bytes in the wrong place (C14).
-/
namespace Verif

namespace Spec

/-- How wide a network is beyond 20 MHz: numbers are channel centres. -/
inductive Beyond where
  | forty
  | eighty (center : Nat)
  | onesixty (center : Nat)
  | twice (center second : Nat)
  | reserved
  deriving DecidableEq, Repr

/-- Where a network is: the primary channel, and above 20 MHz on which side of it the secondary channel is. -/
inductive ChannelPlan where
  | twenty (primary : Nat)
  | wider (primary : Nat) (above : Bool) (width : Beyond)
  deriving DecidableEq, Repr

/-! ## What the standard says, in octets -/

/-- The content of the first element of a number that has so many octets. -/
def saidIn (number octets : Nat) (raws : List RawElement) : Option Bytes :=
  raws.findSome? fun r => if r.tlv_type.toNat = number ∧ octets ≤ r.slice.length then some r.slice else none

/-- An octet as a number. -/
def octetAt (l : Bytes) (i : Nat) : Nat := (l.getD i 0).toNat

/-- Table 9-274 and Table 11-23: width, and the two channel centre frequency segments.  Widths 2 and 3 are deprecated. -/
def widthOf (width seg0 seg1 : Nat) : Beyond :=
  if width = 0 then .forty
  else if width = 1 then
    if seg1 = 0 then .eighty seg0
    else if seg1 = seg0 + 8 ∨ seg0 = seg1 + 8 then .onesixty seg1
    else if seg0 + 16 < seg1 ∨ seg1 + 16 < seg0 then .twice seg0 seg1
    else .reserved
  else if width = 2 then .onesixty seg0
  else if width = 3 then .twice seg0 seg1
  else .reserved

/-- The plan: HT operation has the primary channel in octet 0, the side of the secondary channel in bits 0 and 1 of octet 1,
and in bit 2 if other widths than 20 MHz are used.  `octets` is the size from which on such an element counts. -/
def planFrom (octets : Nat) (raws : List RawElement) : Option ChannelPlan :=
  match saidIn 61 octets raws with
  | none => (saidIn 3 1 raws).map fun d => .twenty (octetAt d 0)
  | some h =>
    let side := octetAt h 1 % 4
    some <| if octetAt h 1 / 4 % 2 = 0 ∨ side = 0 ∨ side = 2 then .twenty (octetAt h 0)
      else .wider (octetAt h 0) (side == 1) (match saidIn 192 5 raws with
        | none => .forty
        | some v => widthOf (octetAt v 0) (octetAt v 1) (octetAt v 2))

/-- The standard's elements have 22 octets. -/
def standardPlan (raws : List RawElement) : Option ChannelPlan := planFrom 22 raws

/-- Plans that can be expressed. -/
def ChannelPlan.Fine : ChannelPlan → Prop
  | .twenty p => p < 256
  | .wider p _ w => p < 256 ∧ match w with
    | .forty => True
    | .eighty c => c < 256
    | .onesixty c => 8 ≤ c ∧ c < 256
    | .twice c d => c < 256 ∧ d < 256 ∧ 0 < d ∧ (c + 16 < d ∨ d + 16 < c)
    | .reserved => False

/-- The elements that an access point sends for a plan.  `more` are the other bits of octet 1, and `info`, `mcs`, `vht` the
other octets. -/
def planElements (p : ChannelPlan) (more : BitVec 5) (info : Arr 4) (mcs : Arr 16) (vht : Arr 2) : List RawElement :=
  let ht (primary low : Nat) : RawElement :=
    ⟨61, [BitVec.ofNat 8 primary, BitVec.ofNat 8 (low + 8 * more.toNat)] ++ info.val ++ mcs.val⟩
  let v (width seg0 seg1 : Nat) : RawElement :=
    ⟨192, [BitVec.ofNat 8 width, BitVec.ofNat 8 seg0, BitVec.ofNat 8 seg1] ++ vht.val⟩
  match p with
  | .twenty primary => [⟨3, [BitVec.ofNat 8 primary]⟩, ht primary 0]
  | .wider primary above w => ht primary (4 + if above then 1 else 3) :: match w with
    | .forty => [v 0 0 0]
    | .eighty c => [v 1 c 0]
    | .onesixty c => [v 1 (c - 8) c]
    | .twice c d => [v 1 c d]
    | .reserved => []

/-! ## The station, with the fields of the crate -/

/-- Two numbers, as `u8::abs_diff` gives it. -/
def absDiff (a b : Byte) : Nat := if a.toNat ≤ b.toNat then b.toNat - a.toNat else a.toNat - b.toNat

/-- The width. -/
def vhtWidth : Option VHTOperationElement → Beyond
  | none => .forty
  | some v =>
    let s0 := v.channel_center_frequency_segment_0
    let s1 := v.channel_center_frequency_segment_1
    match v.channel_bandwidth with
    | .TwentyOrFourtyMHz => .forty
    | .EightyOneSixtyOrEightyPlusEightyMhz =>
      if s1 = 0 then .eighty s0.toNat
      else if absDiff s0 s1 = 8 then .onesixty s1.toNat
      else if 16 < absDiff s0 s1 then .twice s0.toNat s1.toNat
      else .reserved
    | .OneSixtyMHz => .onesixty s0.toNat
    | .NonContiguousEightyPlusEightyMHz => .twice s0.toNat s1.toNat
    | _ => .reserved

/-- The plan. -/
def decideChannel (d : Option DSSSParameterSetElement) (h : Option HTOperationElement)
    (v : Option VHTOperationElement) : Option ChannelPlan :=
  match h with
  | none => d.map fun d => .twenty d.current_channel.toNat
  | some h =>
    let info := h.ht_operation_information
    let side := SecondaryChannelOffset.fromBits (info.secondary_channel_offset.zeroExtend 8)
    some <| if info.any_channel_width && (side == .Above || side == .Below) then
        .wider h.primary_channel.toNat (side == .Above) (vhtWidth v)
      else .twenty h.primary_channel.toNat

/-- HT operation as the crate writes it (C14). -/
def writtenHt (e : HTOperationElement) : Bytes :=
  [e.primary_channel] ++ (toLE e.ht_operation_information.bits).reverse.take 5 ++ encMCSSet e.basic_ht_mcs_set

variable [ScrollRule] [Crc32]

omit [Crc32] in
/-- From the elements of a beacon. -/
def channelOf (els : Bytes) : Res (Option ChannelPlan) := do
  let d ← getFirstElement els dsssKind
  let h ← getFirstElement els htOperationKind
  let v ← getFirstElement els vhtOperationKind
  pure (decideChannel d h v)

/-- From a frame: a beacon or a probe response. -/
def heardChannel (fcs : Bool) (frame : Bytes) : Res (Option (Mac × ChannelPlan)) :=
  match matchFrames frame (if fcs then some true else none)
    [armOf MgmtKind.Beacon.frame (readMgmtFrame readBeaconLike) fun r => (r.1.bssid, r.2.elements),
      armOf MgmtKind.ProbeResponse.frame (readMgmtFrame readBeaconLike) fun r => (r.1.bssid, r.2.elements)] with
  | .panic => .panic
  | .err _ => .ok none
  | .ok (_, bssid, els) => do
    let p ← channelOf els
    pure (p.map fun p => (bssid, p))

end Spec

open Spec

/-! ## Octets and fields -/

variable [ScrollRule]

theorem getFirst_eq {α : Type} {bytes : Bytes} {raws : List RawElement} (h : ElementsOf bytes raws)
    (k : ElementKind α) (hv : k.id ≠ .VendorSpecific []) (hs : ∀ p, k.read p ≠ .panic) :
    getFirstElement bytes k = .ok (raws.findSome? fun e => (contents k.id e).bind (parsed k)) := by
  have hl := h.length_le
  rw [getFirstElement, findMap_of_yields h.yields _ (by omega), findRes_ok (matchTyped_eq k hv hs),
    List.head?_filterMap]

omit [ScrollRule] in
private theorem find_map {α : Type} (f : RawElement → Option α) (g : RawElement → Option Bytes) (m : Bytes → α)
    (h : ∀ r, f r = (g r).map m) (raws : List RawElement) : raws.findSome? f = (raws.findSome? g).map m := by
  induction raws with
  | nil => rfl
  | cons r l ih =>
    rw [List.findSome?_cons, List.findSome?_cons, h r, ih]
    cases g r <;> rfl

/-- Looking for a kind of fixed size is looking for the octets. -/
theorem getFirst_said {α : Type} {bytes : Bytes} {raws : List RawElement} (h : ElementsOf bytes raws)
    (number : Byte) (k : ElementKind α) (hk : k.id = .Id number) (hs : ∀ p, k.read p ≠ .panic) (n : Nat) (m : Bytes → α)
    (hp : ∀ p : Bytes, parsed k p = if n ≤ p.length then some (m p) else none) :
    getFirstElement bytes k = .ok ((saidIn number.toNat n raws).map m) := by
  rw [getFirst_eq h k (by rw [hk]; simp) hs, saidIn]
  congr 1
  refine find_map _ _ m (fun r => ?_) raws
  rw [hk, contents]
  by_cases ht : r.tlv_type = number
  · rw [if_pos ht, Option.bind_some, hp]
    by_cases hn : n ≤ r.slice.length
    · rw [if_pos hn, if_pos ⟨by rw [ht], hn⟩]; rfl
    · rw [if_neg hn, if_neg (fun h => hn h.2)]; rfl
  · rw [if_neg ht, if_neg (fun h => ht (BitVec.eq_of_toNat_eq h.1))]; rfl

private theorem dsss_safe (p : Bytes) : readDSSS p ≠ .panic := by
  intro h
  by_cases hp : p.length < 1
  · obtain ⟨e, he⟩ := c12_dsss.short p hp
    rw [he] at h; cases h
  · obtain ⟨a, r, -, rfl⟩ := c12_dsss.onto p (by omega)
    rw [c12_dsss.read a r trivial] at h; cases h

private theorem dsss_parsed (p : Bytes) :
    parsed dsssKind p = if 1 ≤ p.length then some ⟨p.getD 0 0⟩ else none := by
  have hsl := slack_le
  by_cases hp : 1 ≤ p.length
  · obtain ⟨a, r, -, rfl⟩ := c12_dsss.onto p hp
    rw [if_pos hp, parsed, if_neg (by omega)]
    simp only [dsssKind, c12_dsss.read a r trivial]
    rfl
  · rw [if_neg hp, parsed]
    obtain ⟨e, he⟩ := c12_dsss.short p (by omega)
    simp only [dsssKind, he]
    split <;> rfl

private theorem vht_parsed (p : Bytes) : parsed vhtOperationKind p =
    if 5 ≤ p.length then some ⟨.fromBits (p.getD 0 0), p.getD 1 0, p.getD 2 0, ⟨fromLE 16 ((p.drop 3).take 2)⟩⟩
    else none := by
  have hsl := slack_le
  by_cases hp : 5 ≤ p.length
  · obtain ⟨a, r, hv, rfl⟩ := c12_vht_operation.onto p hp
    rw [if_pos hp, parsed, if_neg (by omega)]
    simp only [vhtOperationKind, c12_vht_operation.read a r hv]
    obtain ⟨w, b, c, ⟨m⟩⟩ := a
    have h1 : ChannelWidth.fromBits w.intoBits = w := ChannelWidth.fromBits_intoBits _ hv
    have h2 : fromLE 16 (toLE m) = m := fromLE_toLE rfl m
    have h3 : (toLE m ++ r).take 2 = toLE m := by rw [List.take_append_of_le_length (by simp), List.take_of_length_le (by simp)]
    simp [h1, h2, h3]
  · rw [if_neg hp, parsed]
    obtain ⟨e, he⟩ := c12_vht_operation.short p (by omega)
    simp only [vhtOperationKind, he]
    split <;> rfl

private theorem vht_safe (p : Bytes) : readVHTOperation p ≠ .panic := by
  intro h
  by_cases hp : p.length < 5
  · obtain ⟨e, he⟩ := c12_vht_operation.short p hp
    rw [he] at h; cases h
  · obtain ⟨a, r, hv, rfl⟩ := c12_vht_operation.onto p (by omega)
    rw [c12_vht_operation.read a r hv] at h; cases h

private theorem ht_read (inp : Bytes) (h : 20 ≤ inp.length) : ∃ e, readHTOperation inp = .ok (e, 22) ∧
    e.primary_channel = inp.getD 0 0 ∧ (toLE e.ht_operation_information.bits).getD 0 0 = inp.getD 1 0 := by
  obtain ⟨b, r, rfl⟩ := exists_u8 (inp := inp) (by omega)
  simp at h
  obtain ⟨i, r, rfl⟩ := exists_arr 5 (inp := r) (by omega)
  simp at h
  obtain ⟨c, r, rfl⟩ := exists_arr 10 (inp := r) (by omega)
  simp at h
  obtain ⟨d, r, rfl⟩ := exists_arr 4 (inp := r) (by omega)
  have key : RdAt (Rd.gread readSupportedMCSSet >>= fun set => pure
      ({ primary_channel := b, ht_operation_information := ⟨fromLE 64 (i.val ++ [0, 0, 0])⟩,
         basic_ht_mcs_set := set } : HTOperationElement)) (c.val ++ (d.val ++ r))
      ⟨b, ⟨fromLE 64 (i.val ++ [0, 0, 0])⟩, ⟨c, ⟨fromLE 32 d.val⟩⟩⟩ 16 := by
    intro pre
    show Rd.bind _ _ _ _ = _
    have := RdAt.gread (readSupportedMCSSet_arr c d r) (by have := slack_le; simp; omega) pre
    simp only [Rd.bind, this]
    rfl
  refine ⟨⟨b, ⟨fromLE 64 (i.val ++ [0, 0, 0])⟩, ⟨c, ⟨fromLE 32 d.val⟩⟩⟩, ?_, rfl, ?_⟩
  · apply RdAt.run
    apply RdAt.cast
    · apply RdAt.u8
      apply RdAt.arr (hp := by decide)
      exact key
    · rfl
  · simp only [toLE_fromLE (w := 64) rfl (i.val ++ [0, 0, 0]) (by simp)]
    obtain ⟨l, hl⟩ := i
    match l, hl with
    | [x0, x1, x2, x3, x4], _ => rfl

/-- What is read. -/
private def htFrom (p : Bytes) : HTOperationElement :=
  match readHTOperation p with
  | .ok (e, _) => e
  | _ => ⟨0, ⟨0⟩, ⟨Arr.zero 10, ⟨0⟩⟩⟩

private theorem ht_parsed (p : Bytes) :
    parsed htOperationKind p = if 20 ≤ p.length then some (htFrom p) else none := by
  have hsl := slack_le
  by_cases hp : 20 ≤ p.length
  · rw [if_pos hp, parsed, if_neg (by omega)]
    obtain ⟨a, he, -⟩ := ht_read p hp
    simp only [htOperationKind, htFrom, he]
  · rw [if_neg hp, parsed]
    obtain ⟨e, he⟩ := c14_short p (by omega)
    simp only [htOperationKind, he]
    split <;> rfl

omit [ScrollRule] in
private theorem low_fields (i : HTOperationInformation) :
    i.secondary_channel_offset.toNat = ((toLE i.bits).getD 0 0).toNat % 4 ∧
    i.any_channel_width = decide (((toLE i.bits).getD 0 0).toNat / 4 % 2 = 1) := by
  obtain ⟨⟨-, hf, -⟩, ⟨-, hb, -⟩, -⟩ := c03_HTOperationInformation
  have h0 : ((toLE i.bits).getD 0 0).toNat = i.bits.toNat % 256 := by
    show (BitVec.ofNat 8 i.bits.toNat).toNat = _
    simp
  have h1 : i.secondary_channel_offset = i.bits.truncate 2 := by
    apply BitVec.eq_of_getLsbD_eq
    intro k hk
    rw [hf i k hk]
    simp [hk]
  constructor
  · rw [h0, h1]
    simp
  · rw [hb, h0, BitVec.getLsbD, Nat.testBit_eq_decide_div_mod_eq]
    congr 1
    simp
    omega

omit [ScrollRule] in
private theorem side_of (n : BitVec 2) :
    ((SecondaryChannelOffset.fromBits (n.zeroExtend 8) == .Above) = (n.toNat == 1)) ∧
    ((SecondaryChannelOffset.fromBits (n.zeroExtend 8) == .Below) = (n.toNat == 3)) := by
  revert n; decide

omit [ScrollRule] in
private theorem width_of (w s0 s1 : Byte) (m : VHTMCSMap) :
    vhtWidth (some ⟨.fromBits w, s0, s1, m⟩) = widthOf w.toNat s0.toNat s1.toNat := by
  have hz : s1 = 0 ↔ s1.toNat = 0 := ⟨fun h => by rw [h]; rfl, fun h => BitVec.eq_of_toNat_eq h⟩
  have h8 : absDiff s0 s1 = 8 ↔ s1.toNat = s0.toNat + 8 ∨ s0.toNat = s1.toNat + 8 := by
    unfold absDiff; split <;> omega
  have h16 : 16 < absDiff s0 s1 ↔ s0.toNat + 16 < s1.toNat ∨ s1.toNat + 16 < s0.toNat := by
    unfold absDiff; split <;> omega
  by_cases h0 : w = 0
  · subst h0; rfl
  by_cases h1 : w = 1
  · subst h1
    show (if s1 = 0 then _ else if absDiff s0 s1 = 8 then _ else if 16 < absDiff s0 s1 then _ else _) = _
    simp only [hz, h8, h16]
    rfl
  by_cases h2 : w = 2
  · subst h2; rfl
  by_cases h3 : w = 3
  · subst h3; rfl
  have ne (k : Byte) (h : w ≠ k) : w.toNat ≠ k.toNat := fun e => h (BitVec.eq_of_toNat_eq e)
  have e0 := ne _ h0; have e1 := ne _ h1; have e2 := ne _ h2; have e3 := ne _ h3
  simp only [BitVec.reduceToNat] at e0 e1 e2 e3
  rw [widthOf, if_neg e0, if_neg e1, if_neg e2, if_neg e3]
  have : ChannelWidth.fromBits w = .Unknown w := by
    simp only [ChannelWidth.fromBits, lookupCode, ChannelWidth.table]
    rw [if_neg (show ¬ w = 0#8 from h0), if_neg (show ¬ w = 1#8 from h1), if_neg (show ¬ w = 2#8 from h2),
      if_neg (show ¬ w = 3#8 from h3)]
  rw [this]
  rfl

/-! ## The property -/

/-- Whatever elements there are, a station that combines them with the fields of the crate has exactly what the standard says,
where an HT operation element counts from 20 octets on. -/
theorem c101_exact (els : Bytes) (raws : List RawElement) (h : ElementsOf els raws) :
    channelOf els = .ok (planFrom 20 raws) := by
  have h1 := getFirst_said h 3 dsssKind rfl dsss_safe 1 _ dsss_parsed
  have h2 := getFirst_said h 61 htOperationKind rfl readHTOperation_ne_panic 20 _ ht_parsed
  have h3 := getFirst_said h 192 vhtOperationKind rfl vht_safe 5 _ vht_parsed
  simp only [channelOf, h1, h2, h3, Res.ok_bind, pure, Res.ok.injEq]
  simp only [BitVec.reduceToNat, planFrom]
  cases hh : saidIn 61 20 raws with
  | none =>
    simp only [Option.map_none, decideChannel, Option.map_map]
    rfl
  | some p =>
    have hp : 20 ≤ p.length := by
      obtain ⟨r, -, hr⟩ := List.exists_of_findSome?_eq_some hh
      split at hr
      · rename_i h; cases hr; exact h.2
      · cases hr
    obtain ⟨e, he, hp0, hp1⟩ := ht_read p hp
    have hfrom : htFrom p = e := by simp only [htFrom, he]
    obtain ⟨l1, l2⟩ := low_fields e.ht_operation_information
    obtain ⟨s1, s2⟩ := side_of e.ht_operation_information.secondary_channel_offset
    simp only [Option.map_some, decideChannel, hfrom, s1, s2, l1, l2, hp0, hp1]
    have hv : vhtWidth ((saidIn 192 5 raws).map fun p => (⟨.fromBits (p.getD 0 0), p.getD 1 0, p.getD 2 0,
        ⟨fromLE 16 ((p.drop 3).take 2)⟩⟩ : VHTOperationElement)) =
        (match saidIn 192 5 raws with
        | none => .forty
        | some v => widthOf (octetAt v 0) (octetAt v 1) (octetAt v 2)) := by
      cases saidIn 192 5 raws with
      | none => rfl
      | some v => exact width_of _ _ _ _
    rw [hv]
    congr 1
    generalize hb : p.getD 1 0 = b
    have ho : octetAt p 1 = b.toNat := by rw [octetAt, hb]
    rw [ho]
    by_cases hw : b.toNat / 4 % 2 = 0 ∨ b.toNat % 4 = 0 ∨ b.toNat % 4 = 2
    · rw [if_pos hw, if_neg (by simp; omega)]; rfl
    · rw [if_neg hw, if_pos (by simp; omega)]; rfl

omit [ScrollRule] in
private theorem plan_sizes (raws : List RawElement)
    (h : ∀ r ∈ raws, r.tlv_type = 61 → r.slice.length ≠ 20 ∧ r.slice.length ≠ 21) :
    planFrom 20 raws = standardPlan raws := by
  have : saidIn 61 20 raws = saidIn 61 22 raws := by
    induction raws with
    | nil => rfl
    | cons r l ih =>
      have ih := ih fun r hr => h r (List.mem_cons_of_mem _ hr)
      simp only [saidIn, List.findSome?_cons] at ih ⊢
      rw [ih]
      by_cases ht : r.tlv_type.toNat = 61
      · have := h r (by simp) (BitVec.eq_of_toNat_eq ht)
        have e : (20 ≤ r.slice.length) = (22 ≤ r.slice.length) := propext ⟨fun _ => by omega, fun _ => by omega⟩
        simp only [e]
      · rw [if_neg (fun h => ht h.1), if_neg (fun h => ht h.1)]
  rw [standardPlan, planFrom, planFrom, this]

/-- If all HT operation elements have their size, this is what the standard says.  Partial: see `c101_short_wrong`. -/
theorem c101_understood_partial (els : Bytes) (raws : List RawElement) (h : ElementsOf els raws)
    (hs : ∀ r ∈ raws, r.tlv_type = 61 → r.slice.length ≠ 20 ∧ r.slice.length ≠ 21) :
    channelOf els = .ok (standardPlan raws) := by
  rw [c101_exact els raws h, plan_sizes raws hs]

omit [ScrollRule] in
/-- Violation: an HT operation element of 20 octets, two too few, is believed: here the network seems to be at channel 40
with 40 MHz, where by the standard only the DSSS parameter set counts, with channel 36. -/
theorem c101_short_wrong : (let _ : ScrollRule := ⟨true⟩
    let raws : List RawElement := [⟨3, [36]⟩, ⟨61, [40, 7] ++ List.replicate 18 0⟩]
    channelOf (raws.flatMap tlv) = .ok (some (.wider 40 false .forty)) ∧ standardPlan raws = some (.twenty 36)) := by
  let _ : ScrollRule := ⟨true⟩
  refine ⟨?_, by decide⟩
  rw [c101_exact _ _ (elementsOf_flatMap _ (by decide) (by intro e he; cases he; decide))]
  decide

omit [ScrollRule] in
private theorem skip (l rest : List RawElement) (n k : Nat) (hl : ∀ r ∈ l, r.tlv_type.toNat ≠ n) :
    saidIn n k (l ++ rest) = saidIn n k rest := by
  induction l with
  | nil => rfl
  | cons r l ih =>
    have ih := ih fun r hr => hl r (List.mem_cons_of_mem _ hr)
    simp only [saidIn, List.cons_append, List.findSome?_cons] at ih ⊢
    rw [if_neg (fun h => hl r (by simp) h.1), ih]

omit [ScrollRule] in
private theorem here (r : RawElement) (rest : List RawElement) (n k : Nat) (h1 : r.tlv_type.toNat = n)
    (h2 : k ≤ r.slice.length) : saidIn n k (r :: rest) = some r.slice := by
  simp only [saidIn, List.findSome?_cons]
  rw [if_pos ⟨h1, h2⟩]

omit [ScrollRule] in
private theorem next (r : RawElement) (rest : List RawElement) (n k : Nat) (h1 : r.tlv_type.toNat ≠ n) :
    saidIn n k (r :: rest) = saidIn n k rest := skip [r] rest n k (by simpa using h1)

omit [ScrollRule] in
private theorem number {r : RawElement} {b : Byte} (h : r.tlv_type ≠ b) : r.tlv_type.toNat ≠ b.toNat :=
  fun e => h (BitVec.eq_of_toNat_eq e)

omit [ScrollRule] in
/-- Every plan can be expressed: the standard's elements for it, whatever the other bits and octets are, say this plan. -/
theorem c101_plans (p : ChannelPlan) (hp : p.Fine) (more : BitVec 5) (info : Arr 4) (mcs : Arr 16) (vht : Arr 2)
    (pre post : List RawElement)
    (hpre : ∀ r ∈ pre, r.tlv_type ≠ 61 ∧ r.tlv_type ≠ 192) (hpost : ∀ r ∈ post, r.tlv_type ≠ 61 ∧ r.tlv_type ≠ 192) :
    standardPlan (pre ++ planElements p more info mcs vht ++ post) = some p := by
  have hm := more.isLt
  have h61 (rest : List RawElement) := skip pre rest 61 22 fun r hr => number (hpre r hr).1
  have h192 (rest : List RawElement) := skip pre rest 192 5 fun r hr => number (hpre r hr).2
  have e192 : saidIn 192 5 post = none := by
    have := skip post [] 192 5 fun r hr => number (hpost r hr).2
    rw [List.append_nil] at this
    exact this
  rw [standardPlan, planFrom, List.append_assoc, h61, h192]
  cases p with
  | twenty primary =>
    have hp : primary < 256 := hp
    simp only [planElements, List.cons_append, List.nil_append]
    rw [next _ _ 61 22 (by simp), here _ _ 61 22 rfl (by simp)]
    simp only [octetAt, List.getD_cons_zero, List.getD_cons_succ, BitVec.toNat_ofNat]
    rw [if_pos (by omega), Nat.mod_eq_of_lt (by omega)]
  | wider primary above w =>
    obtain ⟨hp, hw⟩ := hp
    simp only [planElements, List.cons_append, List.nil_append]
    rw [here _ _ 61 22 rfl (by simp), next _ _ 192 5 (by simp)]
    simp only [octetAt, List.getD_cons_zero, List.getD_cons_succ, BitVec.toNat_ofNat]
    rw [if_neg (by cases above <;> simp <;> omega)]
    have hside : (((4 + if above = true then 1 else 3) + 8 * more.toNat) % 2 ^ 8 % 4 == 1) = above := by
      cases above
      · rw [beq_eq_false_iff_ne]; simp; omega
      · rw [beq_iff_eq]; simp; omega
    rw [hside, Nat.mod_eq_of_lt hp]
    congr 2
    cases w with
    | reserved => exact hw.elim
    | forty =>
      simp only [List.cons_append, List.nil_append]
      rw [here _ _ 192 5 rfl (by simp)]
      rfl
    | eighty c =>
      have hw : c < 256 := hw
      simp only [List.cons_append, List.nil_append]
      rw [here _ _ 192 5 rfl (by simp)]
      simp [widthOf, Nat.mod_eq_of_lt hw]
    | onesixty c =>
      have hw : 8 ≤ c ∧ c < 256 := hw
      simp only [List.cons_append, List.nil_append]
      rw [here _ _ 192 5 rfl (by simp)]
      simp only [widthOf, List.getD_cons_zero, List.getD_cons_succ, BitVec.toNat_ofNat]
      rw [if_neg (by decide), if_pos (by decide), if_neg (by omega), if_pos (by omega), Nat.mod_eq_of_lt (by omega)]
    | twice c d =>
      have hw : c < 256 ∧ d < 256 ∧ 0 < d ∧ (c + 16 < d ∨ d + 16 < c) := hw
      simp only [List.cons_append, List.nil_append]
      rw [here _ _ 192 5 rfl (by simp)]
      simp only [widthOf, List.getD_cons_zero, List.getD_cons_succ, BitVec.toNat_ofNat]
      rw [if_neg (by decide), if_pos (by decide), if_neg (by omega), if_neg (by omega), if_pos (by omega),
        Nat.mod_eq_of_lt (by omega), Nat.mod_eq_of_lt (by omega)]

omit [ScrollRule] in
private theorem written_octets (e : HTOperationElement) (hb : e.ht_operation_information.bits.toNat < 2 ^ 56) :
    (writtenHt e).length = 22 ∧ (writtenHt e).getD 0 0 = e.primary_channel ∧ (writtenHt e).getD 1 0 = 0 := by
  refine ⟨by simp [writtenHt, encMCSSet_length], rfl, ?_⟩
  have : toLE e.ht_operation_information.bits =
      leBytes 7 e.ht_operation_information.bits.toNat ++ [0] := by
    show leBytes 8 e.ht_operation_information.bits.toNat = _
    generalize e.ht_operation_information.bits.toNat = x at hb
    simp only [leBytes, List.cons_append, List.nil_append, List.cons.injEq, true_and, and_true]
    rw [show x / 256 / 256 / 256 / 256 / 256 / 256 / 256 = 0 by omega]
    rfl
  rw [writtenHt, this, List.append_assoc, List.singleton_append, List.getD_cons_succ]
  simp

variable [Crc32]

private theorem heard_exact (resp : Bool) (a : Surroundings) (ha : a.Fine) (name : Str) (hne : slack ≤ name.bytes.length)
    (hl : name.bytes.length ≤ 32) (fcs : Bool) :
    ∃ size, ∀ buf : Bytes, size ≤ buf.length → ∃ frame, announce resp a name fcs buf = .ok frame ∧
      heardChannel fcs frame = .ok ((planFrom 20 (a.before.map Prod.snd ++ ⟨0, name.bytes⟩ :: a.after.map Prod.snd)).map
        fun p => (a.header.bssid, p)) := by
  have hn : SSIDLikeElement.new name = some ⟨name⟩ := (c10_new _ _).2 ⟨hl, rfl⟩
  obtain ⟨x, hx⟩ := announced_item name _ hn
  obtain ⟨size, hA⟩ := announce_arrives resp a ha _ _ x hx (fun _ => hne) fcs
  refine ⟨size, fun buf hb => ?_⟩
  obtain ⟨frame, els, h1, ⟨j, h2⟩, h3⟩ := hA buf hb
  refine ⟨frame, by rw [announce, hn]; exact h1, ?_⟩
  simp only [heardChannel, h2]
  rw [c101_exact els _ h3]
  rfl

/-- A station that hears the frames of a network has the plan that is in its elements.  Partial: HT control must agree with
the order bit and names are UTF-8; under the strict rule of `scroll` neither the name nor the last element may be empty; and
HT operation elements have their size. -/
theorem c101_heard_partial (resp : Bool) (a : Surroundings) (ha : a.Fine) (name : Str) (hne : slack ≤ name.bytes.length)
    (hl : name.bytes.length ≤ 32)
    (hs : ∀ p ∈ a.before ++ a.after, p.2.tlv_type = 61 → p.2.slice.length ≠ 20 ∧ p.2.slice.length ≠ 21) (fcs : Bool) :
    ∃ size, ∀ buf : Bytes, size ≤ buf.length → ∃ frame, announce resp a name fcs buf = .ok frame ∧
      heardChannel fcs frame = .ok ((standardPlan (a.before.map Prod.snd ++ ⟨0, name.bytes⟩ :: a.after.map Prod.snd)).map
        fun p => (a.header.bssid, p)) := by
  rw [← plan_sizes]
  · exact heard_exact resp a ha name hne hl fcs
  · intro r hr ht
    rcases List.mem_append.1 hr with hr | hr
    · obtain ⟨p, hp, rfl⟩ := List.mem_map.1 hr
      exact hs p (by simp [hp]) ht
    · rcases List.mem_cons.1 hr with rfl | hr
      · exact absurd ht (show ¬ (0 : Byte) = 61 by decide)
      · obtain ⟨p, hp, rfl⟩ := List.mem_map.1 hr
        exact hs p (by simp [hp]) ht

omit [ScrollRule] [Crc32] in
private theorem raw_sizes (p : ChannelPlan) (more : BitVec 5) (info : Arr 4) (mcs : Arr 16) (vht : Arr 2) :
    ∀ r ∈ planElements p more info mcs vht, r.tlv_type ≠ 0 ∧ r.slice.length ∈ [1, 5, 22] ∧
      (r.tlv_type = 61 → r.slice.length = 22) := by
  intro r hr
  cases p with
  | twenty =>
    simp only [planElements, List.mem_cons, List.not_mem_nil, or_false] at hr
    rcases hr with rfl | rfl <;> simp
  | wider _ _ w =>
    cases w <;> simp only [planElements, List.mem_cons, List.not_mem_nil, or_false] at hr <;>
      first
      | (subst hr; simp; done)
      | (rcases hr with rfl | rfl <;> simp)

/-- So an access point that writes the octets of the standard as raw elements is understood, whatever its channel is.
Partial as before. -/
theorem c101_raw_partial (resp : Bool) (h : ManagementFrameHeader) (hc : HtConsistent h) (b : BeaconLikeBody Unit)
    (name : Str) (hne : slack ≤ name.bytes.length) (hl : name.bytes.length ≤ 32) (p : ChannelPlan) (hp : p.Fine)
    (more : BitVec 5) (info : Arr 4) (mcs : Arr 16) (vht : Arr 2) (fcs : Bool) :
    ∃ size, ∀ buf : Bytes, size ≤ buf.length → ∃ frame,
      announce resp ⟨h, b, [], (planElements p more info mcs vht).map fun r => (.raw r, r)⟩ name fcs buf = .ok frame ∧
      heardChannel fcs frame = .ok (some (h.bssid, p)) := by
  have hsl := slack_le
  have hr := raw_sizes p more info mcs vht
  obtain ⟨size, hA⟩ := c101_heard_partial resp ⟨h, b, [], (planElements p more info mcs vht).map fun r => (.raw r, r)⟩
    ⟨hc, by
      intro q hq
      obtain ⟨r, hm, rfl⟩ := List.mem_map.1 (by simpa using hq)
      obtain ⟨h0, h1, -⟩ := hr r hm
      refine ⟨⟨_, .raw r ?_⟩, h0⟩
      simp at h1
      omega, by
      intro q hq
      obtain ⟨r, hm, rfl⟩ := List.mem_map.1 (List.mem_of_getLast? hq)
      obtain ⟨-, h1, -⟩ := hr r hm
      simp at h1
      show slack ≤ r.slice.length
      omega⟩ name hne hl (by
      intro q hq ht
      obtain ⟨r, hm, rfl⟩ := List.mem_map.1 (by simpa using hq)
      have h22 := (hr r hm).2.2 ht
      exact show r.slice.length ≠ 20 ∧ r.slice.length ≠ 21 by omega) fcs
  refine ⟨size, fun buf hb => ?_⟩
  obtain ⟨frame, h1, h2⟩ := hA buf hb
  refine ⟨frame, h1, h2.trans ?_⟩
  have := c101_plans p hp more info mcs vht [⟨0, name.bytes⟩] [] (by
    intro r hr
    obtain rfl := List.mem_singleton.1 hr
    exact show (0 : Byte) ≠ 61 ∧ (0 : Byte) ≠ 192 by decide) (by simp)
  simp only [List.append_nil, List.singleton_append] at this
  simp only [List.map_nil, List.nil_append, List.map_map]
  rw [show (Prod.snd ∘ fun r : RawElement => ((ChainItem.raw r, r) : ChainItem × RawElement)) = id from rfl, List.map_id, this]
  rfl

/-- What is heard of an access point that makes HT operation with the crate, whatever it says in it and in the other
elements: the primary channel, with 20 MHz.  The bits from 56 on are reserved, and no setter sets them. -/
theorem c101_typed (resp : Bool) (a : Surroundings) (ha : a.Fine) (e : HTOperationElement)
    (hb : e.ht_operation_information.bits.toNat < 2 ^ 56) (l : List (ChainItem × RawElement))
    (hl : a.after = (.typed (htOperationElem e), ⟨61, writtenHt e⟩) :: l)
    (hs : ∀ p ∈ a.before, p.2.tlv_type ≠ 61) (name : Str) (hne : slack ≤ name.bytes.length)
    (hn : name.bytes.length ≤ 32) (fcs : Bool) :
    ∃ size, ∀ buf : Bytes, size ≤ buf.length → ∃ frame, announce resp a name fcs buf = .ok frame ∧
      heardChannel fcs frame = .ok (some (a.header.bssid, .twenty e.primary_channel.toNat)) := by
  obtain ⟨size, hA⟩ := heard_exact resp a ha name hne hn fcs
  refine ⟨size, fun buf hb' => ?_⟩
  obtain ⟨frame, h1, h2⟩ := hA buf hb'
  refine ⟨frame, h1, h2.trans ?_⟩
  obtain ⟨w1, w2, w3⟩ := written_octets e hb
  have hsaid : saidIn 61 20 (a.before.map Prod.snd ++ ⟨0, name.bytes⟩ :: a.after.map Prod.snd) = some (writtenHt e) := by
    rw [skip _ _ 61 20 (by
      intro r hr
      obtain ⟨p, hp, rfl⟩ := List.mem_map.1 hr
      exact number (b := 61) (hs p hp)), next _ _ 61 20 (by simp), hl, List.map_cons]
    exact here _ _ 61 20 rfl (by show 20 ≤ (writtenHt e).length; omega)
  rw [planFrom, hsaid]
  simp only [octetAt, w2, w3]
  rfl

omit [Crc32] in
/-- The element is an item as it stands there, so the statement is not empty. -/
theorem c101_typed_item (e : HTOperationElement) : ∃ x, ItemOf (.typed (htOperationElem e)) ⟨61, writtenHt e⟩ x := by
  obtain ⟨i, ht⟩ := c54_ht_operation_partial e
  exact ht.item

/-- If the access point means 20 MHz, it is understood.  Partial: otherwise see `c101_wide_lost`. -/
theorem c101_twenty_partial (resp : Bool) (a : Surroundings) (ha : a.Fine) (e : HTOperationElement)
    (hb : e.ht_operation_information.bits.toNat < 2 ^ 56) (l : List (ChainItem × RawElement))
    (hl : a.after = (.typed (htOperationElem e), ⟨61, writtenHt e⟩) :: l)
    (hs : ∀ p ∈ a.before, p.2.tlv_type ≠ 61) (name : Str) (hne : slack ≤ name.bytes.length)
    (hn : name.bytes.length ≤ 32) (fcs : Bool)
    (h : e.ht_operation_information.any_channel_width = false ∨
      SecondaryChannelOffset.fromBits (e.ht_operation_information.secondary_channel_offset.zeroExtend 8) = .NotPresent) :
    ∃ size, ∀ buf : Bytes, size ≤ buf.length → ∃ frame, announce resp a name fcs buf = .ok frame ∧
      ∀ d v, heardChannel fcs frame = .ok ((decideChannel d (some e) v).map fun p => (a.header.bssid, p)) := by
  obtain ⟨size, hA⟩ := c101_typed resp a ha e hb l hl hs name hne hn fcs
  refine ⟨size, fun buf hb => ?_⟩
  obtain ⟨frame, h1, h2⟩ := hA buf hb
  refine ⟨frame, h1, fun d v => h2.trans ?_⟩
  simp only [decideChannel]
  rcases h with h | h <;> rw [h] <;> simp

/-- Violation: if it means more, it is not understood: with `c101_typed`, every network wider than 20 MHz whose access point
makes its HT operation element with the crate is heard as a network of 20 MHz. -/
theorem c101_wide_lost (resp : Bool) (a : Surroundings) (ha : a.Fine) (e : HTOperationElement)
    (hb : e.ht_operation_information.bits.toNat < 2 ^ 56) (l : List (ChainItem × RawElement))
    (hl : a.after = (.typed (htOperationElem e), ⟨61, writtenHt e⟩) :: l)
    (hs : ∀ p ∈ a.before, p.2.tlv_type ≠ 61) (name : Str) (hne : slack ≤ name.bytes.length)
    (hn : name.bytes.length ≤ 32) (fcs : Bool)
    (hw : e.ht_operation_information.any_channel_width = true)
    (hside : SecondaryChannelOffset.fromBits (e.ht_operation_information.secondary_channel_offset.zeroExtend 8) ∈
      [.Above, .Below]) :
    ∃ size, ∀ buf : Bytes, size ≤ buf.length → ∃ frame, announce resp a name fcs buf = .ok frame ∧
      ∀ d v p, decideChannel d (some e) v = some p → heardChannel fcs frame ≠ .ok (some (a.header.bssid, p)) := by
  obtain ⟨size, hA⟩ := c101_typed resp a ha e hb l hl hs name hne hn fcs
  refine ⟨size, fun buf hb => ?_⟩
  obtain ⟨frame, h1, h2⟩ := hA buf hb
  refine ⟨frame, h1, fun d v p hp => ?_⟩
  rw [h2]
  simp only [decideChannel, hw] at hp
  rw [if_pos (by
    simp only [List.mem_cons, List.not_mem_nil, or_false] at hside
    rcases hside with h | h <;> rw [h] <;> rfl)] at hp
  cases hp
  simp

/-- Nothing panics, unless a check sequence is expected in fewer than four bytes. -/
theorem c101_panics_iff (fcs : Bool) (frame : Bytes) :
    heardChannel fcs frame = .panic ↔ fcs = true ∧ frame.length < 4 := by
  rw [← (match_mgmt readBeaconLike readBeaconLike_safe (fun r => (r.1.bssid, r.2.elements)) [.Beacon, .ProbeResponse]
    (by decide) fcs frame).1]
  simp only [List.map_cons, List.map_nil]
  unfold heardChannel
  split
  · rename_i hr
    simp [hr]
  · rename_i hr
    simp [hr]
  · rename_i els hr
    obtain ⟨raws, hraws⟩ := elementsOf_exists els
    rw [hr, c101_exact _ _ hraws]
    simp [pure]

/-- Whatever is received, a station takes a channel only from beacons and probe responses, and only as their elements say. -/
theorem c101_heard_only (fcs : Bool) (frame : Bytes) (bssid : Mac) (p : ChannelPlan)
    (h : heardChannel fcs frame = .ok (some (bssid, p))) :
    ∃ (h : ManagementFrameHeader) (b0 : Byte) (fixed els : Bytes) (raws : List RawElement),
      frame = withFcs fcs (b0 :: h.fcf_flags.bits :: (mgmtHeaderWire h ++ (fixed ++ els))) ∧
      (b0.toNat / 4 % 4, b0.toNat / 16) ∈ [(0, 8), (0, 5)] ∧ HtConsistent h ∧ h.bssid = bssid ∧ fixed.length = 12 ∧
      ElementsOf els raws ∧ planFrom 20 raws = some p := by
  have hm := (match_mgmt readBeaconLike readBeaconLike_safe (fun r => (r.1.bssid, r.2.elements)) [.Beacon, .ProbeResponse]
    (by decide) fcs frame).2.2
  simp only [List.map_cons, List.map_nil] at hm
  unfold heardChannel at h
  split at h
  · cases h
  · cases h
  · rename_i j bs els hr
    obtain ⟨inner, hin, k, hk, hkind, ⟨hd, body⟩, n, hread, hx⟩ := hm _ _ hr
    simp only [Prod.mk.injEq] at hx
    obtain ⟨rfl, rfl⟩ := hx
    have hbr : Bounded readBeaconLike := by
      intro inp b k h
      obtain ⟨_, _, _, _, h, _⟩ := c22_beacon.parse inp b k h
      omega
    obtain ⟨b0, rest, m, h1, h2, h3, h4, -⟩ := c23_parse _ hbr false inner hd body n hread
    obtain ⟨fx, h5, h6, -⟩ := c22_beacon.parse _ _ _ h4
    obtain ⟨raws, hraws⟩ := elementsOf_exists body.elements
    rw [c101_exact _ _ hraws, Res.ok_bind] at h
    simp only [pure, Res.ok.injEq, Option.map_eq_some_iff, Prod.mk.injEq] at h
    obtain ⟨p', hp, rfl, rfl⟩ := h
    refine ⟨hd, b0, fx, body.elements, raws, ?_, ?_, h3, rfl, h6, hraws, hp⟩
    · rw [hin, h1, h5]
      rfl
    · obtain ⟨c0, c1, r', hc, hk1, hk2, -⟩ := hkind
      rw [h1] at hc
      simp only [withFcs, Bool.false_eq_true, if_false, List.cons.injEq] at hc
      obtain ⟨rfl, -⟩ := hc
      rw [hk1, hk2]
      simp only [List.mem_cons, List.not_mem_nil, or_false] at hk
      rcases hk with rfl | rfl <;> simp [kindNumber]

/-- Concrete cases: what the octets of some networks say. -/
example : standardPlan [⟨0, [1]⟩, ⟨3, [11]⟩] = some (.twenty 11) ∧
    standardPlan [⟨61, [36, 5] ++ List.replicate 20 0⟩] = some (.wider 36 true .forty) ∧
    standardPlan [⟨61, [36, 5] ++ List.replicate 20 0⟩, ⟨192, [1, 42, 0, 0, 0]⟩] = some (.wider 36 true (.eighty 42)) ∧
    standardPlan [⟨61, [64, 7] ++ List.replicate 20 0⟩, ⟨192, [1, 58, 50, 0, 0]⟩] = some (.wider 64 false (.onesixty 50)) ∧
    standardPlan [⟨61, [36, 5] ++ List.replicate 20 0⟩, ⟨192, [1, 42, 155, 0, 0]⟩] =
      some (.wider 36 true (.twice 42 155)) ∧
    standardPlan [⟨0, [1]⟩] = none := by decide

/-- Concrete case: a network of 80 MHz at channel 36, as raw elements. -/
example : ∃ size, ∀ buf : Bytes, size ≤ buf.length → ∃ frame,
    announce false ⟨⟨⟨0⟩, 0, Arr.zero 6, Arr.zero 6, Arr.zero 6, ⟨0⟩, none⟩, ⟨0, 100, ⟨0⟩, ()⟩, [],
      (planElements (.wider 36 true (.eighty 42)) 0 (Arr.zero 4) (Arr.zero 16) (Arr.zero 2)).map fun r => (.raw r, r)⟩
      ⟨[97], by decide⟩ true buf = .ok frame ∧
    heardChannel true frame = .ok (some (Arr.zero 6, .wider 36 true (.eighty 42))) :=
  c101_raw_partial false _ (by unfold HtConsistent; decide) _ _ (by have := slack_le; simp; omega) (by decide) _
    (by unfold ChannelPlan.Fine; decide) _ _ _ _ _

/-- Concrete case: the same network, made with the crate, is heard at channel 36 with 20 MHz. -/
example : let e : HTOperationElement := ⟨36, ⟨5⟩, ⟨Arr.zero 10, ⟨0⟩⟩⟩
    decideChannel none (some e) (some ⟨.EightyOneSixtyOrEightyPlusEightyMhz, 42, 0, ⟨0⟩⟩) =
      some (.wider 36 true (.eighty 42)) ∧
    ∃ size, ∀ buf : Bytes, size ≤ buf.length → ∃ frame,
    announce false ⟨⟨⟨0⟩, 0, Arr.zero 6, Arr.zero 6, Arr.zero 6, ⟨0⟩, none⟩, ⟨0, 100, ⟨0⟩, ()⟩, [],
      [(.typed (htOperationElem e), ⟨61, writtenHt e⟩), (.raw ⟨192, [1, 42, 0, 0, 0]⟩, ⟨192, [1, 42, 0, 0, 0]⟩)]⟩
      ⟨[97], by decide⟩ true buf = .ok frame ∧
    heardChannel true frame = .ok (some (Arr.zero 6, .twenty 36)) := by
  intro e
  refine ⟨by decide, ?_⟩
  have hsl := slack_le
  refine c101_typed false _ ⟨?_, ?_, ?_⟩ e (by decide) _ rfl (by simp) _
    (by simp; omega) (by decide) true
  · show (none : Option (Arr 4)).isSome = (⟨0⟩ : FCFFlags).order
    decide
  · intro p hp
    simp only [List.nil_append, List.mem_cons, List.not_mem_nil, or_false] at hp
    rcases hp with rfl | rfl
    · exact ⟨c101_typed_item e, show (61 : Byte) ≠ 0 by decide⟩
    · exact ⟨⟨_, .raw _ (by decide)⟩, show (192 : Byte) ≠ 0 by decide⟩
  · intro p hp
    cases hp
    simp; omega

end Verif
