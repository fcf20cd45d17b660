import Verif.Props.C106
/-!
# C117: each kind of network is taken for what it is

Networks with an access point, ad-hoc networks and meshes announce themselves with the same frames, and say in two bits of their
capabilities (9.4.1.4) which of them they are: ESS alone for an access point, IBSS alone for an ad-hoc network, neither for a mesh; no
network says both.  A third bit says whether the network demands encryption.  A station joins only a network of the kind it looks for,
and only with a key if encryption is demanded, and never sends in the clear to one that demands it.  The station is not in the crate;
it is written here with the functions of the crate.
-/
namespace Verif

namespace Spec

/-- The kinds of networks. -/
inductive NetworkKind
  | accessPoint
  | adHoc
  | mesh
  deriving DecidableEq, Repr

/-- By the first octet of the capabilities: ESS is bit 0 and IBSS is bit 1. -/
def networkKindOf (c0 : Byte) : Option NetworkKind :=
  [some .mesh, some .accessPoint, some .adHoc, none].getD (c0.toNat % 4) none

/-- Whether encryption is demanded: bit 4. -/
def demandsKey (c0 : Byte) : Prop := c0.toNat / 16 % 2 = 1

instance (c0 : Byte) : Decidable (demandsKey c0) := by unfold demandsKey; infer_instance

/-- What a station does that looks for a kind of network and has a key or not: it stays away, joins in the clear, or joins with its
key. -/
inductive Approach
  | stay
  | inTheClear
  | withKey
  deriving DecidableEq, Repr

/-- What is right for a station. -/
def RightApproach (wanted : NetworkKind) (key : Bool) (c0 : Byte) : Approach → Prop
  | .withKey => networkKindOf c0 = some wanted ∧ demandsKey c0 ∧ key = true
  | .inTheClear => networkKindOf c0 = some wanted ∧ ¬ demandsKey c0
  | .stay => networkKindOf c0 ≠ some wanted ∨ (demandsKey c0 ∧ key = false)

/-- The first octet of the capabilities of a station that announces a network. -/
def Surroundings.kindOctet (a : Surroundings) : Byte := (toLE a.fields.capabilities_info.bits).getD 0 0

/-! ## The station, with the functions of the crate -/

/-- Which kind of network. -/
def kindSaid (c : CapabilitiesInformation) : Option NetworkKind :=
  match c.is_ess, c.is_ibss with
  | true, false => some .accessPoint
  | false, true => some .adHoc
  | false, false => some .mesh
  | true, true => none

/-- What to do. -/
def approach (wanted : NetworkKind) (key : Bool) (c : CapabilitiesInformation) : Approach :=
  if kindSaid c = some wanted then
    if c.is_confidentiality_required then (if key then .withKey else .stay) else .inTheClear
  else .stay

variable [ScrollRule] [Crc32]

/-- By a frame: which network, and what to do. -/
def approachHeard (wanted : NetworkKind) (key : Bool) (fcs : Bool) (frame : Bytes) : Res (Option (Mac × Approach)) :=
  match matchFrames frame (if fcs then some true else none)
    [armOf MgmtKind.Beacon.frame (readMgmtFrame readBeaconLike) fun r => r,
      armOf MgmtKind.ProbeResponse.frame (readMgmtFrame readBeaconLike) fun r => r] with
  | .panic => .panic
  | .err _ => .ok none
  | .ok (_, h, b) => .ok (some (h.bssid, approach wanted key b.capabilities_info))

end Spec

open Spec

/-! ## Kinds -/

private theorem bits_of (c : CapabilitiesInformation) (c0 c1 : Byte) (h : toLE c.bits = [c0, c1]) :
    c.is_ess = decide (c0.toNat % 2 = 1) ∧ c.is_ibss = decide (c0.toNat / 2 % 2 = 1) ∧
      c.is_confidentiality_required = decide (c0.toNat / 16 % 2 = 1) := by
  have h' : toLE c.bits = [BitVec.ofNat 8 c.bits.toNat, BitVec.ofNat 8 (c.bits.toNat / 256)] := rfl
  rw [h'] at h
  simp only [List.cons.injEq, and_true] at h
  obtain ⟨rfl, rfl⟩ := h
  refine ⟨?_, ?_, ?_⟩
  · show c.bits.getLsbD 0 = _
    rw [BitVec.getLsbD, Nat.testBit_eq_decide_div_mod_eq]
    congr 1
    simp
    try omega
  · show c.bits.getLsbD 1 = _
    rw [BitVec.getLsbD, Nat.testBit_eq_decide_div_mod_eq]
    congr 1
    simp
    omega
  · show c.bits.getLsbD 4 = _
    rw [BitVec.getLsbD, Nat.testBit_eq_decide_div_mod_eq]
    congr 1
    simp
    omega

/-- The kind is that of the bits. -/
theorem c117_kind (c : CapabilitiesInformation) (c0 c1 : Byte) (h : toLE c.bits = [c0, c1]) :
    kindSaid c = networkKindOf c0 := by
  obtain ⟨h1, h2, -⟩ := bits_of c c0 c1 h
  have : c0.toNat % 4 = c0.toNat % 2 + 2 * (c0.toNat / 2 % 2) := by omega
  rcases Nat.mod_two_eq_zero_or_one c0.toNat with e1 | e1 <;>
    rcases Nat.mod_two_eq_zero_or_one (c0.toNat / 2) with e2 | e2 <;>
    simp [kindSaid, networkKindOf, h1, h2, this, e1, e2]

/-- The station does exactly what is right. -/
theorem c117_exact (wanted : NetworkKind) (key : Bool) (c : CapabilitiesInformation) (c0 c1 : Byte) (h : toLE c.bits = [c0, c1])
    (x : Approach) : approach wanted key c = x ↔ RightApproach wanted key c0 x := by
  obtain ⟨-, -, h3⟩ := bits_of c c0 c1 h
  simp only [approach, c117_kind c c0 c1 h, h3, decide_eq_true_eq]
  by_cases hk : networkKindOf c0 = some wanted <;> by_cases hp : c0.toNat / 16 % 2 = 1 <;> cases key <;> cases x <;>
    simp [RightApproach, demandsKey, hk, hp]

/-- No network is joined by stations that look for different kinds. -/
theorem c117_one_kind (v w : NetworkKind) (k l : Bool) (c0 : Byte) (x y : Approach) (hx : RightApproach v k c0 x)
    (hy : RightApproach w l c0 y) (hxs : x ≠ .stay) (hys : y ≠ .stay) : v = w := by
  cases x <;> cases y <;> simp_all [RightApproach]

variable [ScrollRule] [Crc32]

/-- The elements and the fields of an announcement arrive. -/
private theorem announced (resp : Bool) (a : Surroundings) (ha : a.Fine) (name : Str)
    (hn : slack ≤ name.bytes.length ∧ name.bytes.length ≤ 32) (fcs : Bool) :
    ∃ size, ∀ buf : Bytes, size ≤ buf.length → ∃ frame els j, announce resp a name fcs buf = .ok frame ∧
      matchFrames frame (if fcs then some true else none)
        [armOf MgmtKind.Beacon.frame (readMgmtFrame readBeaconLike) fun r => r,
          armOf MgmtKind.ProbeResponse.frame (readMgmtFrame readBeaconLike) fun r => r] =
        .ok (j, a.header, ⟨a.fields.timestamp, a.fields.beacon_interval, a.fields.capabilities_info, els⟩) ∧
      ElementsOf els (a.elements name) := by
  have he : SSIDLikeElement.new name = some ⟨name⟩ := (c10_new name _).2 ⟨hn.2, rfl⟩
  obtain ⟨x, hx⟩ := announced_item name _ he
  obtain ⟨y, hch⟩ := chainAround_of a.before a.after (fun p hp => (ha.items p hp).1) _ _ x hx
  have hlast : ∀ q, (a.before.map Prod.snd ++ (⟨0, name.bytes⟩ : RawElement) :: a.after.map Prod.snd).getLast? = some q →
      slack ≤ q.slice.length := by
    intro q hq
    rw [List.getLast?_append, List.getLast?_cons] at hq
    cases hg : (a.after.map Prod.snd).getLast? with
    | none =>
      rw [hg] at hq
      simp at hq
      subst hq
      exact hn.1
    | some r' =>
      rw [hg] at hq
      simp at hq
      subst hq
      rw [List.getLast?_map] at hg
      obtain ⟨p, hp, rfl⟩ := Option.map_eq_some_iff.1 hg
      exact ha.last p hp
  cases resp
  · obtain ⟨size, hA⟩ := c65_bodies_partial.2.2.2.2.1 a.header ha.ht
      ⟨a.fields.timestamp, a.fields.beacon_interval, a.fields.capabilities_info, (a.chain (.typed (ssidElem ⟨name⟩))).obj⟩ _ _ y
      rfl hch hlast trivial fcs _ (fun r => r) []
      [armOf MgmtKind.ProbeResponse.frame (readMgmtFrame readBeaconLike) fun r => r] (by simp)
    refine ⟨size, fun buf hb => ?_⟩
    obtain ⟨out, n, els, h1, h2, h3⟩ := hA buf hb
    refine ⟨out.take n, els, _, ?_, h2, h3⟩
    simp only [announce, he, announceWith]
    erw [h1]
    rfl
  · obtain ⟨size, hA⟩ := c65_bodies_partial.2.2.2.1 a.header ha.ht
      ⟨a.fields.timestamp, a.fields.beacon_interval, a.fields.capabilities_info, (a.chain (.typed (ssidElem ⟨name⟩))).obj⟩ _ _ y
      rfl hch hlast trivial fcs _ (fun r => r)
      [armOf MgmtKind.Beacon.frame (readMgmtFrame readBeaconLike) fun r => r] [] (by
        intro b hb
        obtain rfl := List.mem_singleton.1 hb
        exact .inr (.inr ⟨.Beacon, .inl (by decide), rfl⟩))
    refine ⟨size, fun buf hb => ?_⟩
    obtain ⟨out, n, els, h1, h2, h3⟩ := hA buf hb
    refine ⟨out.take n, els, _, ?_, h2, h3⟩
    simp only [announce, he, announceWith]
    erw [h1]
    rfl

/-- For frames: a beacon or a probe response of the crate with any elements, and what a station does.  Partial: HT control must agree
with the order bit, and under the strict rule of `scroll` neither the name nor the last element is empty. -/
theorem c117_heard_partial (wanted : NetworkKind) (key : Bool) (resp : Bool) (a : Surroundings) (name : Str) (fcs : Bool)
    (h : (OnAir.network resp a name).Fine fcs) :
    ∃ size, ∀ buf : Bytes, size ≤ buf.length → ∃ frame x, announce resp a name fcs buf = .ok frame ∧
      approachHeard wanted key fcs frame = .ok (some (a.header.bssid, x)) ∧ RightApproach wanted key a.kindOctet x := by
  obtain ⟨ha, hn⟩ := h
  obtain ⟨size, hA⟩ := announced resp a ha name hn fcs
  refine ⟨size, fun buf hb => ?_⟩
  obtain ⟨frame, els, j, h1, h2, h3⟩ := hA buf hb
  refine ⟨frame, approach wanted key a.fields.capabilities_info, h1, by simp only [approachHeard, h2], ?_⟩
  exact (c117_exact wanted key a.fields.capabilities_info a.kindOctet _ rfl _).1 rfl

/-- Nothing panics, unless a check sequence is expected in fewer than four bytes. -/
theorem c117_panics_iff (wanted : NetworkKind) (key : Bool) (fcs : Bool) (frame : Bytes) :
    approachHeard wanted key fcs frame = .panic ↔ fcs = true ∧ frame.length < 4 := by
  rw [← (match_mgmt readBeaconLike readBeaconLike_safe (fun r => r) [.Beacon, .ProbeResponse] (by decide) fcs frame).1]
  simp only [List.map_cons, List.map_nil]
  unfold approachHeard
  split <;> rename_i hr <;> simp [hr]

/-- Whatever is received, a station does what is right by a beacon or a probe response of this network: octets 10 and 11 of the body
are its capabilities. -/
theorem c117_heard_only (wanted : NetworkKind) (key : Bool) (fcs : Bool) (frame : Bytes) (who : Mac) (x : Approach)
    (h : approachHeard wanted key fcs frame = .ok (some (who, x))) :
    ∃ (h : ManagementFrameHeader) (b0 c0 c1 : Byte) (times els : Bytes),
      frame = withFcs fcs (b0 :: h.fcf_flags.bits :: (mgmtHeaderWire h ++ (times ++ [c0, c1] ++ els))) ∧
      (b0.toNat / 4 % 4, b0.toNat / 16) ∈ [(0, 8), (0, 5)] ∧ HtConsistent h ∧ h.bssid = who ∧ times.length = 10 ∧
      RightApproach wanted key c0 x := by
  have hm := (match_mgmt readBeaconLike readBeaconLike_safe (fun r => r) [.Beacon, .ProbeResponse] (by decide) fcs frame).2.2
  simp only [List.map_cons, List.map_nil] at hm
  unfold approachHeard at h
  split at h
  · cases h
  · cases h
  · rename_i j hd b hr
    obtain ⟨inner, hin, k, hk, hkind, ⟨hd', body⟩, m, hread, he⟩ := hm _ _ hr
    obtain ⟨rfl, rfl⟩ : hd = hd' ∧ b = body := by simpa using he
    have hbr : Bounded readBeaconLike := by
      intro inp b k h
      obtain ⟨_, _, _, _, h, _⟩ := c22_beacon.parse inp b k h
      omega
    obtain ⟨b0, rest, m, h1, h2, h3, h4, -⟩ := c23_parse _ hbr false inner hd b _ hread
    obtain ⟨fx, h5, -, rfl, -⟩ := c22_beacon.parse _ _ _ h4
    simp only [Res.ok.injEq, Option.some.injEq, Prod.mk.injEq] at h
    obtain ⟨rfl, rfl⟩ := h
    obtain ⟨c0, c1, hcs⟩ : ∃ c0 c1, toLE b.capabilities_info.bits = [c0, c1] := ⟨_, _, rfl⟩
    refine ⟨hd, b0, c0, c1, toLE b.timestamp ++ toLE b.beacon_interval, b.elements, ?_, ?_, h3, rfl, by simp,
      (c117_exact _ _ _ _ _ hcs _).1 rfl⟩
    · rw [hin, h1, h5, ← hcs]
      rfl
    · obtain ⟨d0, d1, r', hc, hk1, hk2, -⟩ := hkind
      rw [h1] at hc
      simp only [withFcs, Bool.false_eq_true, if_false, List.cons.injEq] at hc
      obtain ⟨rfl, -⟩ := hc
      rw [hk1, hk2]
      simp only [List.mem_cons, List.not_mem_nil, or_false] at hk
      rcases hk with rfl | rfl <;> simp [kindNumber]

/-! ## Concrete cases -/

/-- An open access point, one that demands encryption, an ad-hoc network and a mesh; and what no network says. -/
example : [0x01, 0x11, 0x02, 0x10, 0x03].map networkKindOf =
    [some .accessPoint, some .accessPoint, some .adHoc, some .mesh, none] := by decide

/-- The access point that demands encryption is joined with a key only, and not by who looks for an ad-hoc network. -/
example : RightApproach .accessPoint true 0x11 .withKey ∧ RightApproach .accessPoint false 0x11 .stay ∧
    ¬ RightApproach .accessPoint false 0x11 .inTheClear ∧ RightApproach .adHoc true 0x11 .stay := by
  simp only [RightApproach]
  decide

/-- Two stations, with and without key, that look for the same access point: the hypotheses of `c117_one_kind`. -/
example : RightApproach .accessPoint true 0x01 .inTheClear ∧ RightApproach .accessPoint false 0x01 .inTheClear := by
  simp only [RightApproach]
  decide

/-- Concrete case: an access point that demands encryption is heard, and a station with a key joins with it. -/
example : ∃ size, ∀ buf : Bytes, size ≤ buf.length → ∃ frame,
    announce false ⟨⟨⟨0⟩, 0, Arr.zero 6, Arr.zero 6, Arr.zero 6, ⟨0⟩, none⟩, ⟨0, 100, ⟨0x0011⟩, ()⟩, [], []⟩
      ⟨[97], by decide⟩ true buf = .ok frame ∧
    approachHeard .accessPoint true true frame = .ok (some (Arr.zero 6, .withKey)) := by
  have hsl := slack_le
  obtain ⟨size, h⟩ := c117_heard_partial .accessPoint true false
    ⟨⟨⟨0⟩, 0, Arr.zero 6, Arr.zero 6, Arr.zero 6, ⟨0⟩, none⟩, ⟨0, 100, ⟨0x0011⟩, ()⟩, [], []⟩ ⟨[97], by decide⟩ true
    ⟨⟨(by show (none : Option (Arr 4)).isSome = (⟨0⟩ : FCFFlags).order; decide), (fun p hp => by cases hp),
      (fun p hp => by cases hp)⟩, (by simp; omega), by decide⟩
  refine ⟨size, fun buf hb => ?_⟩
  obtain ⟨frame, x, h1, h2, h3⟩ := h buf hb
  refine ⟨frame, h1, ?_⟩
  have : approach .accessPoint true ⟨0x0011⟩ = x := (c117_exact _ _ _ _ _ rfl _).2 h3
  rw [h2, ← this]
  rfl

end Verif
