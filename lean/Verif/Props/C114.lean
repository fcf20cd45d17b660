import Verif.Props.C106
/-!
# C114: stations of an ad-hoc network are awake together

Without an access point nobody keeps messages for stations that sleep.  The stations are awake together for a while after each time of
a beacon, the ATIM window, and announce to each other what they have (11.2.4 of the standard).  The length of the window is in the
IBSS parameter set element (9.4.2.6), the interval in the beacon.  The program is not in the crate; it is written here with the
functions of the crate, and asks whether to be awake at a time of the network (C104).
-/
namespace Verif

namespace Spec

/-- Windows begin with each interval; lengths are in time units of 1024 microseconds, times in microseconds. -/
def AwakeAt (interval window t : Nat) : Prop := ∃ k, k * (1024 * interval) ≤ t ∧ t < k * (1024 * interval) + 1024 * window

/-- What a station should do by the octets of a network: nothing is known unless it is an ad-hoc network with intervals and a window. -/
def RightAwake (adhoc : Bool) (interval : Nat) (raws : List RawElement) (t : Nat) : Option Bool → Prop
  | none => adhoc = false ∨ interval = 0 ∨ saidIn 6 2 raws = none
  | some x => adhoc = true ∧ 0 < interval ∧ ∃ p, saidIn 6 2 raws = some p ∧
    (x = true ↔ AwakeAt interval (octetAt p 0 + 256 * octetAt p 1) t)

/-! ## The station, with the functions of the crate -/

variable [ScrollRule] [Crc32]

omit [Crc32] in
/-- By the body of a beacon. -/
def awakeIn (t : Nat) (b : BeaconLikeBody Bytes) : Res (Option Bool) := do
  match ← getFirstElement b.elements ibssKind with
  | none => pure none
  | some e =>
    let interval ← b.beaconIntervalMicros
    if b.capabilities_info.is_ibss = true ∧ interval ≠ 0 then pure (some (decide (t % interval < e.atimWindowMicros)))
    else pure none

/-- By a frame: in which network, and whether to be awake. -/
def awakeHeard (t : Nat) (fcs : Bool) (frame : Bytes) : Res (Option (Mac × Option Bool)) :=
  match matchFrames frame (if fcs then some true else none)
    [armOf MgmtKind.Beacon.frame (readMgmtFrame readBeaconLike) fun r => r,
      armOf MgmtKind.ProbeResponse.frame (readMgmtFrame readBeaconLike) fun r => r] with
  | .panic => .panic
  | .err _ => .ok none
  | .ok (_, h, b) => do
    let x ← awakeIn t b
    pure (some (h.bssid, x))

end Spec

open Spec

/-! ## Windows -/

private theorem awake_iff (interval window t : Nat) (h : 0 < interval) :
    t % (1024 * interval) < 1024 * window ↔ AwakeAt interval window t := by
  have hd := Nat.div_add_mod t (1024 * interval)
  rw [Nat.mul_comm] at hd
  constructor
  · intro hlt
    exact ⟨t / (1024 * interval), by omega, by omega⟩
  · rintro ⟨k, h1, h2⟩
    have hk : k ≤ t / (1024 * interval) := (Nat.le_div_iff_mul_le (by omega)).2 h1
    have := Nat.mul_le_mul_right (1024 * interval) hk
    omega

/-- Two stations that know the same interval and window, from whatever frames, are awake at the same times. -/
theorem c114_together (interval : Nat) (raws raws' : List RawElement) (t : Nat) (o o' : Option Bool)
    (hs : saidIn 6 2 raws = saidIn 6 2 raws') (adhoc : Bool) (h : RightAwake adhoc interval raws t o)
    (h' : RightAwake adhoc interval raws' t o') : o = o' := by
  cases o with
  | none =>
    cases o' with
    | none => rfl
    | some y =>
      obtain ⟨h1, h2, p, h3, -⟩ := h'
      rcases h with h | h | h
      · rw [h] at h1; cases h1
      · omega
      · rw [hs, h3] at h; cases h
  | some x =>
    obtain ⟨h1, h2, p, h3, h4⟩ := h
    cases o' with
    | none =>
      rcases h' with h | h | h
      · rw [h] at h1; cases h1
      · omega
      · rw [← hs, h3] at h; cases h
    | some y =>
      obtain ⟨-, -, q, h5, h6⟩ := h'
      rw [← hs, h3] at h5
      cases h5
      congr 1
      exact Bool.eq_iff_iff.2 (h4.trans h6.symm)

variable [ScrollRule]

private theorem ibss_safe (p : Bytes) : readIBSS p ≠ .panic := by
  intro h
  by_cases hp : p.length < 2
  · obtain ⟨e, he⟩ := c12_ibss.short p hp
    rw [he] at h; cases h
  · obtain ⟨a, r, -, rfl⟩ := c12_ibss.onto p (by omega)
    rw [c12_ibss.read a r trivial] at h; cases h

private theorem ibss_parsed (p : Bytes) :
    parsed ibssKind p = if 2 ≤ p.length then some ⟨fromLE 16 (p.take 2)⟩ else none := by
  have hsl := slack_le
  by_cases hp : 2 ≤ p.length
  · obtain ⟨⟨a⟩, r, -, rfl⟩ := c12_ibss.onto p hp
    rw [if_pos hp, parsed, if_neg (by omega)]
    simp only [ibssKind, c12_ibss.read ⟨a⟩ r trivial]
    rw [List.take_left' (by simp), fromLE_toLE rfl]
  · rw [if_neg hp, parsed]
    obtain ⟨e, he⟩ := c12_ibss.short p (by omega)
    simp only [ibssKind, he]
    split <;> rfl

omit [ScrollRule] in
private theorem two_octets (p : Bytes) (h : 2 ≤ p.length) :
    (fromLE 16 (p.take 2)).toNat = octetAt p 0 + 256 * octetAt p 1 := by
  match p, h with
  | a :: b :: r, _ =>
    have ha := a.isLt
    have hb := b.isLt
    simp [fromLE, leNat, octetAt]
    omega

/-- For all bodies: the station is right, by the octets of the standard. -/
theorem c114_exact (t : Nat) (b : BeaconLikeBody Bytes) (raws : List RawElement) (h : ElementsOf b.elements raws) :
    ∃ o, awakeIn t b = .ok o ∧ RightAwake b.capabilities_info.is_ibss b.beacon_interval.toNat raws t o := by
  have h1 := getFirst_said h 6 ibssKind rfl ibss_safe 2 _ ibss_parsed
  simp only [BitVec.reduceToNat] at h1
  simp only [awakeIn, h1, Res.ok_bind]
  cases hs : saidIn 6 2 raws with
  | none => exact ⟨none, rfl, .inr (.inr hs)⟩
  | some p =>
    have hp : 2 ≤ p.length := by
      obtain ⟨r, -, hr⟩ := List.exists_of_findSome?_eq_some hs
      split at hr
      · rename_i hc
        cases hr
        exact hc.2
      · cases hr
    simp only [Option.map_some, c57_beacon_interval, Res.ok_bind, timeUnit, IBSSParameterSetElement.atimWindowMicros, tuMicros,
      two_octets p hp]
    by_cases hc : b.capabilities_info.is_ibss = true ∧ 1024 * b.beacon_interval.toNat ≠ 0
    · rw [if_pos hc]
      have h0 : 0 < b.beacon_interval.toNat := by omega
      refine ⟨_, rfl, hc.1, h0, p, hs, ?_⟩
      rw [decide_eq_true_eq]
      exact awake_iff _ _ _ h0
    · rw [if_neg hc]
      refine ⟨none, rfl, ?_⟩
      cases hi : b.capabilities_info.is_ibss with
      | false => exact .inl rfl
      | true => exact .inr (.inl (by rw [hi] at hc; simp at hc; omega))

variable [Crc32]

/-- The elements and the fields of an announcement arrive. -/
private theorem announced (resp : Bool) (a : Surroundings) (ha : a.Fine) (name : Str)
    (hn : slack ≤ name.bytes.length ∧ name.bytes.length ≤ 32) (fcs : Bool) :
    ∃ size, ∀ buf : Bytes, size ≤ buf.length → ∃ frame els j, announce resp a name fcs buf = .ok frame ∧
      matchFrames frame (if fcs then some true else none)
        [armOf MgmtKind.Beacon.frame (readMgmtFrame readBeaconLike) fun r => r,
          armOf MgmtKind.ProbeResponse.frame (readMgmtFrame readBeaconLike) fun r => r] =
        .ok (j, a.header, ⟨a.fields.timestamp, a.fields.beacon_interval, a.fields.capabilities_info, els⟩) ∧
      ElementsOf els (a.elements name) := by
  have he : SSIDLikeElement.new name = some ⟨name⟩ := (c10_new name _).2 ⟨hn.2, rfl⟩
  obtain ⟨x, hx⟩ := announced_item name _ he
  obtain ⟨y, hch⟩ := chainAround_of a.before a.after (fun p hp => (ha.items p hp).1) _ _ x hx
  have hlast : ∀ q, (a.before.map Prod.snd ++ (⟨0, name.bytes⟩ : RawElement) :: a.after.map Prod.snd).getLast? = some q →
      slack ≤ q.slice.length := by
    intro q hq
    rw [List.getLast?_append, List.getLast?_cons] at hq
    cases hg : (a.after.map Prod.snd).getLast? with
    | none =>
      rw [hg] at hq
      simp at hq
      subst hq
      exact hn.1
    | some r' =>
      rw [hg] at hq
      simp at hq
      subst hq
      rw [List.getLast?_map] at hg
      obtain ⟨p, hp, rfl⟩ := Option.map_eq_some_iff.1 hg
      exact ha.last p hp
  cases resp
  · obtain ⟨size, hA⟩ := c65_bodies_partial.2.2.2.2.1 a.header ha.ht
      ⟨a.fields.timestamp, a.fields.beacon_interval, a.fields.capabilities_info, (a.chain (.typed (ssidElem ⟨name⟩))).obj⟩ _ _ y
      rfl hch hlast trivial fcs _ (fun r => r) []
      [armOf MgmtKind.ProbeResponse.frame (readMgmtFrame readBeaconLike) fun r => r] (by simp)
    refine ⟨size, fun buf hb => ?_⟩
    obtain ⟨out, n, els, h1, h2, h3⟩ := hA buf hb
    refine ⟨out.take n, els, _, ?_, h2, h3⟩
    simp only [announce, he, announceWith]
    erw [h1]
    rfl
  · obtain ⟨size, hA⟩ := c65_bodies_partial.2.2.2.1 a.header ha.ht
      ⟨a.fields.timestamp, a.fields.beacon_interval, a.fields.capabilities_info, (a.chain (.typed (ssidElem ⟨name⟩))).obj⟩ _ _ y
      rfl hch hlast trivial fcs _ (fun r => r)
      [armOf MgmtKind.Beacon.frame (readMgmtFrame readBeaconLike) fun r => r] [] (by
        intro b hb
        obtain rfl := List.mem_singleton.1 hb
        exact .inr (.inr ⟨.Beacon, .inl (by decide), rfl⟩))
    refine ⟨size, fun buf hb => ?_⟩
    obtain ⟨out, n, els, h1, h2, h3⟩ := hA buf hb
    refine ⟨out.take n, els, _, ?_, h2, h3⟩
    simp only [announce, he, announceWith]
    erw [h1]
    rfl

/-- For frames: a beacon or a probe response of the crate with any elements, and what a station makes of it.  Partial: HT control
must agree with the order bit, and under the strict rule of `scroll` neither the name nor the last element is empty. -/
theorem c114_heard_partial (t : Nat) (resp : Bool) (a : Surroundings) (name : Str) (fcs : Bool)
    (h : (OnAir.network resp a name).Fine fcs) :
    ∃ size, ∀ buf : Bytes, size ≤ buf.length → ∃ frame o, announce resp a name fcs buf = .ok frame ∧
      awakeHeard t fcs frame = .ok (some (a.header.bssid, o)) ∧
      RightAwake a.fields.capabilities_info.is_ibss a.fields.beacon_interval.toNat (a.elements name) t o := by
  obtain ⟨ha, hn⟩ := h
  obtain ⟨size, hA⟩ := announced resp a ha name hn fcs
  refine ⟨size, fun buf hb => ?_⟩
  obtain ⟨frame, els, j, h1, h2, h3⟩ := hA buf hb
  obtain ⟨o, h4, h5⟩ := c114_exact t
    ⟨a.fields.timestamp, a.fields.beacon_interval, a.fields.capabilities_info, els⟩ _ h3
  refine ⟨frame, o, h1, ?_, h5⟩
  simp only [awakeHeard, h2, h4, Res.ok_bind]
  rfl

/-- Nothing panics, unless a check sequence is expected in fewer than four bytes. -/
theorem c114_panics_iff (t : Nat) (fcs : Bool) (frame : Bytes) :
    awakeHeard t fcs frame = .panic ↔ fcs = true ∧ frame.length < 4 := by
  rw [← (match_mgmt readBeaconLike readBeaconLike_safe (fun r => r) [.Beacon, .ProbeResponse] (by decide) fcs frame).1]
  simp only [List.map_cons, List.map_nil]
  unfold awakeHeard
  split
  · rename_i hr
    simp [hr]
  · rename_i hr
    simp [hr]
  · rename_i hd b hr
    obtain ⟨raws, hraws⟩ := elementsOf_exists b.elements
    obtain ⟨o, h1, -⟩ := c114_exact t b _ hraws
    rw [hr, h1]
    simp [pure]

/-- Whatever is received, a station sleeps or wakes by the octets of a beacon or probe response: octets 8 and 9 of the body are the
interval, bit 1 of the next says that it is of an ad-hoc network. -/
theorem c114_heard_only (t : Nat) (fcs : Bool) (frame : Bytes) (who : Mac) (o : Option Bool)
    (h : awakeHeard t fcs frame = .ok (some (who, o))) :
    ∃ (h : ManagementFrameHeader) (b0 c0 c1 : Byte) (stamp interval els : Bytes) (raws : List RawElement),
      frame = withFcs fcs (b0 :: h.fcf_flags.bits :: (mgmtHeaderWire h ++ (stamp ++ interval ++ [c0, c1] ++ els))) ∧
      (b0.toNat / 4 % 4, b0.toNat / 16) ∈ [(0, 8), (0, 5)] ∧ HtConsistent h ∧ h.bssid = who ∧ stamp.length = 8 ∧
      interval.length = 2 ∧ ElementsOf els raws ∧
      RightAwake (decide (c0.toNat / 2 % 2 = 1)) (octetAt interval 0 + 256 * octetAt interval 1) raws t o := by
  have hm := (match_mgmt readBeaconLike readBeaconLike_safe (fun r => r) [.Beacon, .ProbeResponse] (by decide) fcs frame).2.2
  simp only [List.map_cons, List.map_nil] at hm
  unfold awakeHeard at h
  split at h
  · cases h
  · cases h
  · rename_i j hd b hr
    obtain ⟨inner, hin, k, hk, hkind, ⟨hd', body⟩, m, hread, he⟩ := hm _ _ hr
    obtain ⟨rfl, rfl⟩ : hd = hd' ∧ b = body := by simpa using he
    have hbr : Bounded readBeaconLike := by
      intro inp b k h
      obtain ⟨_, _, _, _, h, _⟩ := c22_beacon.parse inp b k h
      omega
    obtain ⟨b0, rest, m, h1, h2, h3, h4, -⟩ := c23_parse _ hbr false inner hd b _ hread
    obtain ⟨fx, h5, -, rfl, -⟩ := c22_beacon.parse _ _ _ h4
    obtain ⟨raws, hraws⟩ := elementsOf_exists b.elements
    obtain ⟨o', h7, h8⟩ := c114_exact t b _ hraws
    rw [h7, Res.ok_bind] at h
    simp only [pure, Res.ok.injEq, Option.some.injEq, Prod.mk.injEq] at h
    obtain ⟨rfl, rfl⟩ := h
    obtain ⟨c0, c1, hcs⟩ : ∃ c0 c1, toLE b.capabilities_info.bits = [c0, c1] := ⟨_, _, rfl⟩
    refine ⟨hd, b0, c0, c1, toLE b.timestamp, toLE b.beacon_interval, b.elements, raws, ?_, ?_, h3, rfl, by simp, by simp,
      hraws, ?_⟩
    · rw [hin, h1, h5, ← hcs]
      rfl
    · obtain ⟨d0, d1, r', hc, hk1, hk2, -⟩ := hkind
      rw [h1] at hc
      simp only [withFcs, Bool.false_eq_true, if_false, List.cons.injEq] at hc
      obtain ⟨rfl, -⟩ := hc
      rw [hk1, hk2]
      simp only [List.mem_cons, List.not_mem_nil, or_false] at hk
      rcases hk with rfl | rfl <;> simp [kindNumber]
    · have e1 : octetAt (toLE b.beacon_interval) 0 + 256 * octetAt (toLE b.beacon_interval) 1 = b.beacon_interval.toNat := by
        rw [← two_octets _ (by simp), List.take_of_length_le (by simp), fromLE_toLE rfl]
      have e2 : decide (c0.toNat / 2 % 2 = 1) = b.capabilities_info.is_ibss := by
        have e : c0 = BitVec.ofNat 8 b.capabilities_info.bits.toNat := by
          have : toLE b.capabilities_info.bits = [BitVec.ofNat 8 b.capabilities_info.bits.toNat,
            BitVec.ofNat 8 (b.capabilities_info.bits.toNat / 256)] := rfl
          rw [this] at hcs
          simp at hcs
          exact hcs.1.symm
        show _ = b.capabilities_info.bits.getLsbD 1
        rw [BitVec.getLsbD, Nat.testBit_eq_decide_div_mod_eq, e]
        congr 1
        simp
        omega
      rw [e1, e2]
      exact h8

/-! ## Windows given as durations -/

omit [ScrollRule] [Crc32] in
/-- A station that makes the element from a duration in microseconds: the window that is heard, for all durations. -/
theorem c114_duration (micros : Nat) (raws : List RawElement)
    (hs : saidIn 6 2 raws = some (toLE (IBSSParameterSetElement.new micros).atim_window)) (adhoc : Bool) (interval t : Nat)
    (x : Bool) (h : RightAwake adhoc interval raws t (some x)) :
    x = true ↔ AwakeAt interval (micros / 1024 % 65536) t := by
  obtain ⟨-, -, p, h1, h2⟩ := h
  rw [hs] at h1
  cases h1
  rw [h2, ← two_octets _ (by simp), List.take_of_length_le (by simp), fromLE_toLE rfl]
  simp [IBSSParameterSetElement.new, tuMicros]

omit [ScrollRule] [Crc32] in
/-- So for all durations that fit, a station is awake for the whole time units of the duration.  Partial: otherwise see
`c114_long_lost`. -/
theorem c114_duration_partial (micros : Nat) (hm : micros < 65536 * 1024) (raws : List RawElement)
    (hs : saidIn 6 2 raws = some (toLE (IBSSParameterSetElement.new micros).atim_window)) (adhoc : Bool) (interval t : Nat)
    (x : Bool) (h : RightAwake adhoc interval raws t (some x)) :
    x = true ↔ AwakeAt interval (micros / 1024) t := by
  rw [c114_duration micros raws hs adhoc interval t x h, Nat.mod_eq_of_lt (by omega)]

omit [ScrollRule] [Crc32] in
/-- Violation: with a duration of 65536 time units, which is longer than every interval, everybody should always be awake, and
nobody ever is. -/
theorem c114_long_lost (raws : List RawElement)
    (hs : saidIn 6 2 raws = some (toLE (IBSSParameterSetElement.new (65536 * 1024)).atim_window)) (adhoc : Bool)
    (interval t : Nat) (hi : 0 < interval) (hl : interval < 65536) (x : Bool) (h : RightAwake adhoc interval raws t (some x)) :
    AwakeAt interval (65536 * 1024 / 1024) t ∧ x = false := by
  constructor
  · rw [← awake_iff _ _ _ hi]
    have := Nat.mod_lt t (show 1024 * interval > 0 by omega)
    omega
  · have h1 := c114_duration _ raws hs adhoc interval t x h
    cases x with
    | false => rfl
    | true =>
      obtain ⟨k, h2, h3⟩ := h1.1 rfl
      simp at h3
      omega

/-! ## Concrete cases -/

/-- A window of 10 time units after each 100: awake at 307 time units, asleep at 311. -/
example : AwakeAt 100 10 (307 * 1024) ∧ ¬ AwakeAt 100 10 (311 * 1024) := by
  rw [← awake_iff _ _ _ (by omega), ← awake_iff _ _ _ (by omega)]
  decide

/-- A station of such a network. -/
private def some_station (micros : Nat) : Surroundings :=
  ⟨⟨⟨0⟩, 0, Arr.zero 6, Arr.zero 6, Arr.zero 6, ⟨0⟩, none⟩, ⟨0, 100, ⟨2⟩, ()⟩, [],
    [(.typed (ibssElem (.new micros)), ⟨6, toLE (IBSSParameterSetElement.new micros).atim_window⟩)]⟩

omit [Crc32] in
private theorem some_station_fine (micros : Nat) (fcs : Bool) :
    (OnAir.network false (some_station micros) ⟨[97], by decide⟩).Fine fcs := by
  have hsl := slack_le
  refine ⟨⟨?_, ?_, ?_⟩, ?_, ?_⟩
  · show (none : Option (Arr 4)).isSome = (⟨0⟩ : FCFFlags).order
    decide
  · intro p hp
    simp only [some_station, List.nil_append, List.mem_cons, List.not_mem_nil, or_false] at hp
    subst hp
    exact ⟨(c54_ibss _).item, show (6 : Byte) ≠ 0 by decide⟩
  · intro p hp
    cases hp
    simp; omega
  · simp; omega
  · decide

/-- Concrete case: it is heard, and a station that hears it is awake exactly in the window. -/
example (t : Nat) : ∃ size, ∀ buf : Bytes, size ≤ buf.length → ∃ frame x,
    announce false (some_station 10300) ⟨[97], by decide⟩ true buf = .ok frame ∧
    awakeHeard t true frame = .ok (some (Arr.zero 6, some x)) ∧ (x = true ↔ AwakeAt 100 10 t) := by
  obtain ⟨size, hA⟩ := c114_heard_partial t false _ _ true (some_station_fine 10300 true)
  refine ⟨size, fun buf hb => ?_⟩
  obtain ⟨frame, o, h1, h2, h3⟩ := hA buf hb
  cases o with
  | none =>
    rcases h3 with h | h | h
    · exact absurd h (show (⟨2⟩ : CapabilitiesInformation).is_ibss ≠ false by decide)
    · cases h
    · cases h
  | some x => exact ⟨frame, x, h1, h2, c114_duration_partial 10300 (by omega) _ rfl _ _ _ _ h3⟩

/-- Concrete case: with a window that is too long, all sleep. -/
example (t : Nat) : ∃ size, ∀ buf : Bytes, size ≤ buf.length → ∃ frame,
    announce false (some_station (65536 * 1024)) ⟨[97], by decide⟩ true buf = .ok frame ∧
    awakeHeard t true frame = .ok (some (Arr.zero 6, some false)) := by
  obtain ⟨size, hA⟩ := c114_heard_partial t false _ _ true (some_station_fine (65536 * 1024) true)
  refine ⟨size, fun buf hb => ?_⟩
  obtain ⟨frame, o, h1, h2, h3⟩ := hA buf hb
  cases o with
  | none =>
    rcases h3 with h | h | h
    · exact absurd h (show (⟨2⟩ : CapabilitiesInformation).is_ibss ≠ false by decide)
    · cases h
    · cases h
  | some x =>
    obtain ⟨-, rfl⟩ := c114_long_lost _ rfl _ _ _ (show 0 < (100 : BitVec 16).toNat by decide)
      (show (100 : BitVec 16).toNat < 65536 by decide) _ h3
    exact ⟨frame, h1, h2⟩

end Verif
