import Verif.Props.C106
/-!
# C115: nobody speaks too early

Before a station of a 2.4 GHz network sends, the medium must have been free for a while (10.3.4 of the standard): a short space of 10
microseconds, two slots, and as many slots more as the station has drawn.  A slot takes 9 microseconds if the network uses short
slots, and 20 otherwise; the network says so in its capabilities (9.4.1.4), as it says whether short preambles are allowed (96 instead
of 192 microseconds).  The program is not in the crate; it is written here with the functions of the crate.
-/
namespace Verif

namespace Spec

/-- By the two octets of the capabilities: how long a slot is.  Bit 10 is bit 2 of the second octet. -/
def slotOf (_c0 c1 : Byte) : Nat := if c1.toNat / 4 % 2 = 1 then 9 else 20

/-- How long a preamble is at least.  Bit 5. -/
def preambleOf (c0 _c1 : Byte) : Nat := if c0.toNat / 32 % 2 = 1 then 96 else 192

/-- How long the medium must be free. -/
def waitOf (c0 c1 : Byte) (drawn : Nat) : Nat := 10 + 2 * slotOf c0 c1 + drawn * slotOf c0 c1

/-- The octets of the capabilities of a station that announces a network. -/
def Surroundings.capabilityOctets (a : Surroundings) : Byte × Byte :=
  ((toLE a.fields.capabilities_info.bits).getD 0 0, (toLE a.fields.capabilities_info.bits).getD 1 0)

/-! ## The station, with the functions of the crate -/

/-- Waiting time and preamble. -/
def timing (c : CapabilitiesInformation) (drawn : Nat) : Nat × Nat :=
  (10 + (2 + drawn) * (if c.is_short_time_slot_in_use then 9 else 20), if c.is_short_preamble_allowed then 96 else 192)

variable [ScrollRule] [Crc32]

/-- By a frame: in which network, how long to wait and how long the preamble is. -/
def timingHeard (drawn : Nat) (fcs : Bool) (frame : Bytes) : Res (Option (Mac × Nat × Nat)) :=
  match matchFrames frame (if fcs then some true else none)
    [armOf MgmtKind.Beacon.frame (readMgmtFrame readBeaconLike) fun r => r,
      armOf MgmtKind.ProbeResponse.frame (readMgmtFrame readBeaconLike) fun r => r] with
  | .panic => .panic
  | .err _ => .ok none
  | .ok (_, h, b) => .ok (some (h.bssid, timing b.capabilities_info drawn))

end Spec

open Spec

/-! ## Times -/

/-- The fields are the bits of the octets. -/
theorem c115_exact (c : CapabilitiesInformation) (drawn : Nat) (c0 c1 : Byte) (h : toLE c.bits = [c0, c1]) :
    timing c drawn = (waitOf c0 c1 drawn, preambleOf c0 c1) := by
  have h' : toLE c.bits = [BitVec.ofNat 8 c.bits.toNat, BitVec.ofNat 8 (c.bits.toNat / 256)] := rfl
  rw [h'] at h
  simp only [List.cons.injEq, and_true] at h
  obtain ⟨rfl, rfl⟩ := h
  have e1 : c.is_short_time_slot_in_use = decide ((BitVec.ofNat 8 (c.bits.toNat / 256)).toNat / 4 % 2 = 1) := by
    show c.bits.getLsbD 10 = _
    rw [BitVec.getLsbD, Nat.testBit_eq_decide_div_mod_eq]
    congr 1
    simp
    omega
  have e2 : c.is_short_preamble_allowed = decide ((BitVec.ofNat 8 c.bits.toNat).toNat / 32 % 2 = 1) := by
    show c.bits.getLsbD 5 = _
    rw [BitVec.getLsbD, Nat.testBit_eq_decide_div_mod_eq]
    congr 1
    simp
    omega
  simp only [timing, waitOf, slotOf, preambleOf, e1, e2, decide_eq_true_eq, Prod.mk.injEq, and_true]
  split <;> omega

/-- Of two stations of a network the one that has drawn less is earlier, by at least one slot; and nobody sends before the short
space and two slots are over. -/
theorem c115_order (c0 c1 : Byte) (m n : Nat) (h : m < n) :
    waitOf c0 c1 m + slotOf c0 c1 ≤ waitOf c0 c1 n ∧ 10 + 2 * slotOf c0 c1 ≤ waitOf c0 c1 m := by
  have := Nat.mul_le_mul_right (slotOf c0 c1) (show m + 1 ≤ n from h)
  rw [Nat.add_mul, Nat.one_mul] at this
  exact ⟨by unfold waitOf; omega, by unfold waitOf; omega⟩

variable [ScrollRule] [Crc32]

/-- The elements and the fields of an announcement arrive. -/
private theorem announced (resp : Bool) (a : Surroundings) (ha : a.Fine) (name : Str)
    (hn : slack ≤ name.bytes.length ∧ name.bytes.length ≤ 32) (fcs : Bool) :
    ∃ size, ∀ buf : Bytes, size ≤ buf.length → ∃ frame els j, announce resp a name fcs buf = .ok frame ∧
      matchFrames frame (if fcs then some true else none)
        [armOf MgmtKind.Beacon.frame (readMgmtFrame readBeaconLike) fun r => r,
          armOf MgmtKind.ProbeResponse.frame (readMgmtFrame readBeaconLike) fun r => r] =
        .ok (j, a.header, ⟨a.fields.timestamp, a.fields.beacon_interval, a.fields.capabilities_info, els⟩) ∧
      ElementsOf els (a.elements name) := by
  have he : SSIDLikeElement.new name = some ⟨name⟩ := (c10_new name _).2 ⟨hn.2, rfl⟩
  obtain ⟨x, hx⟩ := announced_item name _ he
  obtain ⟨y, hch⟩ := chainAround_of a.before a.after (fun p hp => (ha.items p hp).1) _ _ x hx
  have hlast : ∀ q, (a.before.map Prod.snd ++ (⟨0, name.bytes⟩ : RawElement) :: a.after.map Prod.snd).getLast? = some q →
      slack ≤ q.slice.length := by
    intro q hq
    rw [List.getLast?_append, List.getLast?_cons] at hq
    cases hg : (a.after.map Prod.snd).getLast? with
    | none =>
      rw [hg] at hq
      simp at hq
      subst hq
      exact hn.1
    | some r' =>
      rw [hg] at hq
      simp at hq
      subst hq
      rw [List.getLast?_map] at hg
      obtain ⟨p, hp, rfl⟩ := Option.map_eq_some_iff.1 hg
      exact ha.last p hp
  cases resp
  · obtain ⟨size, hA⟩ := c65_bodies_partial.2.2.2.2.1 a.header ha.ht
      ⟨a.fields.timestamp, a.fields.beacon_interval, a.fields.capabilities_info, (a.chain (.typed (ssidElem ⟨name⟩))).obj⟩ _ _ y
      rfl hch hlast trivial fcs _ (fun r => r) []
      [armOf MgmtKind.ProbeResponse.frame (readMgmtFrame readBeaconLike) fun r => r] (by simp)
    refine ⟨size, fun buf hb => ?_⟩
    obtain ⟨out, n, els, h1, h2, h3⟩ := hA buf hb
    refine ⟨out.take n, els, _, ?_, h2, h3⟩
    simp only [announce, he, announceWith]
    erw [h1]
    rfl
  · obtain ⟨size, hA⟩ := c65_bodies_partial.2.2.2.1 a.header ha.ht
      ⟨a.fields.timestamp, a.fields.beacon_interval, a.fields.capabilities_info, (a.chain (.typed (ssidElem ⟨name⟩))).obj⟩ _ _ y
      rfl hch hlast trivial fcs _ (fun r => r)
      [armOf MgmtKind.Beacon.frame (readMgmtFrame readBeaconLike) fun r => r] [] (by
        intro b hb
        obtain rfl := List.mem_singleton.1 hb
        exact .inr (.inr ⟨.Beacon, .inl (by decide), rfl⟩))
    refine ⟨size, fun buf hb => ?_⟩
    obtain ⟨out, n, els, h1, h2, h3⟩ := hA buf hb
    refine ⟨out.take n, els, _, ?_, h2, h3⟩
    simp only [announce, he, announceWith]
    erw [h1]
    rfl

/-- For frames: a beacon or a probe response of the crate with any elements, and what a station makes of it.  Partial: HT control
must agree with the order bit, and under the strict rule of `scroll` neither the name nor the last element is empty. -/
theorem c115_heard_partial (drawn : Nat) (resp : Bool) (a : Surroundings) (name : Str) (fcs : Bool)
    (h : (OnAir.network resp a name).Fine fcs) :
    ∃ size, ∀ buf : Bytes, size ≤ buf.length → ∃ frame, announce resp a name fcs buf = .ok frame ∧
      timingHeard drawn fcs frame = .ok (some (a.header.bssid, waitOf a.capabilityOctets.1 a.capabilityOctets.2 drawn,
        preambleOf a.capabilityOctets.1 a.capabilityOctets.2)) := by
  obtain ⟨ha, hn⟩ := h
  obtain ⟨size, hA⟩ := announced resp a ha name hn fcs
  refine ⟨size, fun buf hb => ?_⟩
  obtain ⟨frame, els, j, h1, h2, h3⟩ := hA buf hb
  refine ⟨frame, h1, ?_⟩
  simp only [timingHeard, h2]
  rw [c115_exact a.fields.capabilities_info drawn a.capabilityOctets.1 a.capabilityOctets.2 rfl]

/-- Nothing panics, unless a check sequence is expected in fewer than four bytes. -/
theorem c115_panics_iff (drawn : Nat) (fcs : Bool) (frame : Bytes) :
    timingHeard drawn fcs frame = .panic ↔ fcs = true ∧ frame.length < 4 := by
  rw [← (match_mgmt readBeaconLike readBeaconLike_safe (fun r => r) [.Beacon, .ProbeResponse] (by decide) fcs frame).1]
  simp only [List.map_cons, List.map_nil]
  unfold timingHeard
  split <;> rename_i hr <;> simp [hr]

/-- Whatever is received, times are those of a beacon or a probe response of this network: octets 10 and 11 of the body are its
capabilities. -/
theorem c115_heard_only (drawn : Nat) (fcs : Bool) (frame : Bytes) (who : Mac) (x : Nat × Nat)
    (h : timingHeard drawn fcs frame = .ok (some (who, x))) :
    ∃ (h : ManagementFrameHeader) (b0 c0 c1 : Byte) (times els : Bytes),
      frame = withFcs fcs (b0 :: h.fcf_flags.bits :: (mgmtHeaderWire h ++ (times ++ [c0, c1] ++ els))) ∧
      (b0.toNat / 4 % 4, b0.toNat / 16) ∈ [(0, 8), (0, 5)] ∧ HtConsistent h ∧ h.bssid = who ∧ times.length = 10 ∧
      x = (waitOf c0 c1 drawn, preambleOf c0 c1) := by
  have hm := (match_mgmt readBeaconLike readBeaconLike_safe (fun r => r) [.Beacon, .ProbeResponse] (by decide) fcs frame).2.2
  simp only [List.map_cons, List.map_nil] at hm
  unfold timingHeard at h
  split at h
  · cases h
  · cases h
  · rename_i j hd b hr
    obtain ⟨inner, hin, k, hk, hkind, ⟨hd', body⟩, m, hread, he⟩ := hm _ _ hr
    obtain ⟨rfl, rfl⟩ : hd = hd' ∧ b = body := by simpa using he
    have hbr : Bounded readBeaconLike := by
      intro inp b k h
      obtain ⟨_, _, _, _, h, _⟩ := c22_beacon.parse inp b k h
      omega
    obtain ⟨b0, rest, m, h1, h2, h3, h4, -⟩ := c23_parse _ hbr false inner hd b _ hread
    obtain ⟨fx, h5, -, rfl, -⟩ := c22_beacon.parse _ _ _ h4
    simp only [Res.ok.injEq, Option.some.injEq, Prod.mk.injEq] at h
    obtain ⟨rfl, rfl⟩ := h
    obtain ⟨c0, c1, hcs⟩ : ∃ c0 c1, toLE b.capabilities_info.bits = [c0, c1] := ⟨_, _, rfl⟩
    refine ⟨hd, b0, c0, c1, toLE b.timestamp ++ toLE b.beacon_interval, b.elements, ?_, ?_, h3, rfl, by simp,
      c115_exact _ _ _ _ hcs⟩
    · rw [hin, h1, h5, ← hcs]
      rfl
    · obtain ⟨d0, d1, r', hc, hk1, hk2, -⟩ := hkind
      rw [h1] at hc
      simp only [withFcs, Bool.false_eq_true, if_false, List.cons.injEq] at hc
      obtain ⟨rfl, -⟩ := hc
      rw [hk1, hk2]
      simp only [List.mem_cons, List.not_mem_nil, or_false] at hk
      rcases hk with rfl | rfl <;> simp [kindNumber]

/-! ## Concrete cases -/

/-- An access point with short slots, one with short preambles, and one with neither. -/
example : (waitOf 0x01 0x04 0, preambleOf 0x01 0x04) = (28, 192) ∧ (waitOf 0x21 0x00 0, preambleOf 0x21 0x00) = (50, 96) ∧
    (waitOf 0x01 0x00 7, preambleOf 0x01 0x00) = (190, 192) := by decide

/-- Concrete case: an access point with short slots and short preambles is heard, and a station that has drawn 3 waits for 55
microseconds. -/
example : ∃ size, ∀ buf : Bytes, size ≤ buf.length → ∃ frame,
    announce false ⟨⟨⟨0⟩, 0, Arr.zero 6, Arr.zero 6, Arr.zero 6, ⟨0⟩, none⟩, ⟨0, 100,
      ((⟨0⟩ : CapabilitiesInformation).with_is_short_time_slot_in_use true).with_is_short_preamble_allowed true, ()⟩, [], []⟩
      ⟨[97], by decide⟩ true buf = .ok frame ∧
    timingHeard 3 true frame = .ok (some (Arr.zero 6, 55, 96)) := by
  have hsl := slack_le
  refine c115_heard_partial 3 false _ _ true ⟨⟨?_, ?_, ?_⟩, ?_, ?_⟩
  · show (none : Option (Arr 4)).isSome = (⟨0⟩ : FCFFlags).order
    decide
  · intro p hp
    cases hp
  · intro p hp
    cases hp
  · simp; omega
  · decide

end Verif
