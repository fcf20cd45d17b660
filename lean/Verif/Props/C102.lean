import Verif.Props.C57
import Verif.Props.C95
/-!
# C102: sleeping stations wake for the right beacons

Group traffic is sent after the beacons whose DTIM count is zero (11.2.3).  A station reads from any beacon when the next of
these comes: the timestamp, the beacon interval, and the count and the period of the TIM (9.4.2.5).  Neither the access point
nor the station is in the crate; they are written here with its functions.  The clock of the station is that of the access
point, whose time is zero at beacon 0, and beacons are not late.
-/
namespace Verif

namespace Spec

/-! ## What the octets say -/

/-- Count, period and the flag for group traffic: of the first TIM whose count is not above its period. -/
def dtimSaid (raws : List RawElement) : Option (Nat × Nat × Bool) :=
  raws.findSome? fun r => if r.tlv_type.toNat = 5 ∧ 2 ≤ r.slice.length ∧ (r.slice.getD 0 0).toNat ≤ (r.slice.getD 1 0).toNat
    then some ((r.slice.getD 0 0).toNat, (r.slice.getD 1 0).toNat, (r.slice.getD 2 0).getLsbD 0) else none

/-- When beacon `k` is sent, in microseconds, with so many time units of 1024 microseconds between beacons. -/
def beaconTime (interval k : Nat) : Nat := k * (1024 * interval)

/-- Beacons from here to the next one with group traffic; zero for the latter. -/
def dtimCountdown (period k : Nat) : Nat := (period - k % period) % period

/-- Beacon `j` is the first after `k` that can have group traffic behind it. -/
def NextDtim (period k j : Nat) : Prop := k < j ∧ period ∣ j ∧ ∀ i, k < i → i < j → ¬ period ∣ i

/-! ## The access point -/

/-- A beaconing access point; the bitmap may change from beacon to beacon. -/
structure Beaconing where
  header : ManagementFrameHeader
  capabilities : CapabilitiesInformation
  interval : BitVec 16
  period : Byte
  control : Nat → TIMBitmapControl
  bits : Nat → TIMBits
  before : List (ChainItem × RawElement)
  after : List (ChainItem × RawElement)
  fcs : Bool

/-- The bitmaps are bytes or from the macros, and not too long (for those of `new_static` see C16). -/
structure Beaconing.Fine [ScrollRule] (a : Beaconing) : Prop where
  ht : HtConsistent a.header
  items : ∀ p ∈ a.before ++ a.after, (∃ x, ItemOf p.1 p.2 x) ∧ p.2.tlv_type ≠ 5
  last : ∀ p, a.after.getLast? = some p → slack ≤ p.2.slice.length
  bits : ∀ k, ∃ map, (a.bits k).asBytes = .ok map ∧ map.length ≤ 252 ∧ ∀ b n, a.bits k ≠ .static b n

/-- The time of a beacon. -/
def Beaconing.time (a : Beaconing) (k : Nat) : Nat := beaconTime a.interval.toNat k

variable [ScrollRule] [Crc32]

/-- Beacon `k`, by the functions of the crate. -/
def Beaconing.send (a : Beaconing) (buf : Bytes) (k : Nat) : Res Bytes := do
  let te ← timElem ⟨BitVec.ofNat 8 (dtimCountdown a.period.toNat k), a.period, some ⟨a.control k, some (a.bits k)⟩⟩
  let (out, n) ← beaconWith a.header ⟨BitVec.ofNat 64 (a.time k), a.interval, a.capabilities, ()⟩
    (chainAround (a.before.map Prod.fst) (a.after.map Prod.fst) (.typed te)) a.fcs buf
  pure (out.take n)

/-- What is sent at a time: a beacon or nothing. -/
def Beaconing.air (a : Beaconing) (buf : Bytes) (t : Nat) : Option (Res Bytes) :=
  if t % (1024 * a.interval.toNat) = 0 then some (a.send buf (t / (1024 * a.interval.toNat))) else none

/-! ## The station -/

omit [Crc32] in
/-- From the body of a beacon: the time of the next beacon with group traffic, and if there is such traffic now.  (Sums and
products of `Duration`, which does not overflow here.) -/
def wakeUp (b : BeaconLikeBody Bytes) : Res (Option (Nat × Bool)) := do
  match ← getFirstElement b.elements timKind with
  | none => pure none
  | some e =>
    let interval ← b.beaconIntervalMicros
    let beacons := if e.dtim_count = 0 then e.dtim_period.toNat else e.dtim_count.toNat
    pure (some (b.timestampMicros + beacons * interval, e.bitmap.any (·.trafficIndicator)))

/-- From a frame. -/
def heardBeacon (fcs : Bool) (frame : Bytes) : Res (Option (Nat × Bool)) :=
  match matchFrames frame (if fcs then some true else none)
    [armOf MgmtKind.Beacon.frame (readMgmtFrame readBeaconLike) fun r => r.2] with
  | .panic => .panic
  | .err _ => .ok none
  | .ok (_, b) => wakeUp b

/-- A station that wakes so often, the first time at `t`: when it was awake, and the flags it heard.  If it hears nothing it
stays awake, which is not followed further. -/
def nap (fcs : Bool) (air : Nat → Option (Res Bytes)) : Nat → Nat → Res (List (Nat × Bool))
  | 0, _ => .ok []
  | n + 1, t =>
    match air t with
    | none => .ok []
    | some sent => do
      let frame ← sent
      match ← heardBeacon fcs frame with
      | none => pure []
      | some (next, flag) => do
        let l ← nap fcs air n next
        pure ((t, flag) :: l)

end Spec

open Spec

/-! ## The schedule -/

/-- Counting down leads to the next beacon with group traffic. -/
theorem c102_next (period k : Nat) (hp : 0 < period) :
    NextDtim period k (k + if dtimCountdown period k = 0 then period else dtimCountdown period k) ∧
    (dtimCountdown period k = 0 ↔ period ∣ k) ∧ dtimCountdown period k < period := by
  have hm := Nat.mod_lt k hp
  have hk := Nat.div_add_mod k period
  have key : (k + if dtimCountdown period k = 0 then period else dtimCountdown period k) = period * (k / period + 1) ∧
      (dtimCountdown period k = 0 ↔ k % period = 0) := by
    rw [Nat.mul_add, Nat.mul_one]
    by_cases h0 : k % period = 0
    · have : dtimCountdown period k = 0 := by simp [dtimCountdown, h0]
      rw [if_pos this]
      exact ⟨by omega, by simp [this, h0]⟩
    · have : dtimCountdown period k = period - k % period := Nat.mod_eq_of_lt (by omega)
      rw [if_neg (by omega), this]
      exact ⟨by omega, by omega⟩
  refine ⟨?_, key.2.trans (Nat.dvd_iff_mod_eq_zero ..).symm, Nat.mod_lt _ hp⟩
  rw [key.1]
  refine ⟨by rw [Nat.mul_add, Nat.mul_one]; omega, Nat.dvd_mul_right .., ?_⟩
  rintro i h1 h2 ⟨j, rfl⟩
  have h3 : j < k / period + 1 := Nat.lt_of_mul_lt_mul_left h2
  have h4 : period * j ≤ period * (k / period) := Nat.mul_le_mul_left _ (by omega)
  omega

/-- There is only one next beacon. -/
private theorem next_unique {period k i j : Nat} (hi : NextDtim period k i) (hj : NextDtim period k j) : i = j := by
  obtain ⟨a1, a2, a3⟩ := hi
  obtain ⟨b1, b2, b3⟩ := hj
  rcases Nat.lt_trichotomy i j with h | h | h
  · exact absurd a2 (b3 i a1 h)
  · exact h
  · exact absurd b2 (a3 j b1 h)

/-! ## Octets and fields -/

variable [ScrollRule]

private theorem tim_parsed (p : Bytes) : (parsed timKind p).map (fun e =>
      (e.dtim_count.toNat, e.dtim_period.toNat, e.bitmap.any (·.trafficIndicator))) =
    if 2 ≤ p.length ∧ (p.getD 0 0).toNat ≤ (p.getD 1 0).toNat then
      some ((p.getD 0 0).toNat, (p.getD 1 0).toNat, (p.getD 2 0).getLsbD 0) else none := by
  have hs := slack_le
  match p with
  | [] =>
    obtain ⟨x, hx⟩ := c16_parse_short [] (by simp)
    rw [if_neg (by simp)]
    simp only [parsed, timKind, hx]
    split <;> rfl
  | [b] =>
    obtain ⟨x, hx⟩ := c16_parse_short [b] (by simp)
    rw [if_neg (by simp)]
    simp only [parsed, timKind, hx]
    split <;> rfl
  | c :: q :: rest =>
    by_cases h : q < c
    · obtain ⟨x, hx⟩ := (c16_parse c q rest).1 h
      rw [if_neg (by
        simp only [List.getD_cons_zero, List.getD_cons_succ]
        have : q.toNat < c.toNat := h
        omega)]
      simp only [parsed, timKind, hx]
      split <;> rfl
    · have hx := (c16_parse c q rest).2 h
      rw [if_pos ⟨by simp, by
        simp only [List.getD_cons_zero, List.getD_cons_succ]
        have : ¬ q.toNat < c.toNat := h
        omega⟩]
      simp only [parsed, timKind, hx]
      rw [if_neg (by simp; omega)]
      cases rest with
      | nil => simp
      | cons x r =>
        simp only [Option.map_some, Option.any_some, List.getD_cons_zero, List.getD_cons_succ]
        rfl

private theorem tim_safe (p : Bytes) : timKind.read p ≠ .panic := by
  intro h
  have := readTIM_safe p
  rw [show readTIM p = .panic from h] at this
  exact this

/-- For all element bytes: what a station learns is what the octets of the first proper TIM say. -/
theorem c102_exact (b : BeaconLikeBody Bytes) (raws : List RawElement) (h : ElementsOf b.elements raws) :
    wakeUp b = .ok ((dtimSaid raws).map fun (count, period, flag) =>
      (b.timestamp.toNat + (if count = 0 then period else count) * (1024 * b.beacon_interval.toNat), flag)) := by
  have hl := h.length_le
  have hf : getFirstElement b.elements timKind =
      .ok (raws.findSome? fun e => (contents timKind.id e).bind (parsed timKind)) := by
    rw [getFirstElement, findMap_of_yields h.yields _ (by omega),
      findRes_ok (matchTyped_eq timKind (by simp [timKind]) tim_safe), List.head?_filterMap]
  have hsaid : dtimSaid raws = (raws.findSome? fun e => (contents timKind.id e).bind (parsed timKind)).map fun e =>
      (e.dtim_count.toNat, e.dtim_period.toNat, e.bitmap.any (·.trafficIndicator)) := by
    clear h hl hf
    induction raws with
    | nil => rfl
    | cons r l ih =>
      rw [dtimSaid] at ih ⊢
      rw [List.findSome?_cons, List.findSome?_cons, ih]
      by_cases ht : r.tlv_type = 5
      · have hc : contents timKind.id r = some r.slice := if_pos ht
        have := tim_parsed r.slice
        rw [hc, Option.bind_some]
        cases hp : parsed timKind r.slice with
        | none =>
          rw [hp] at this
          split at this
          · cases this
          · rename_i hn
            rw [if_neg (fun h => hn h.2)]
        | some e =>
          rw [hp] at this
          split at this
          · rename_i hy
            rw [if_pos ⟨by rw [ht]; rfl, hy⟩, ← this]
            rfl
          · cases this
      · have hc : contents timKind.id r = none := if_neg ht
        rw [hc, if_neg (fun h => ht (BitVec.eq_of_toNat_eq h.1))]
        rfl
  rw [wakeUp, hf, Res.ok_bind, hsaid]
  cases raws.findSome? fun e => (contents timKind.id e).bind (parsed timKind) with
  | none => rfl
  | some e =>
    simp only [c57_beacon_interval, Res.ok_bind, timeUnit, Option.map_some]
    have : e.dtim_count = 0 ↔ e.dtim_count.toNat = 0 :=
      ⟨fun h => by rw [h]; rfl, fun h => BitVec.eq_of_toNat_eq h⟩
    simp only [this]
    rfl

variable [Crc32]

omit [Crc32] in
private theorem last_of (a : Beaconing) (ha : a.Fine) (r : RawElement) (hr : slack ≤ r.slice.length) :
    ∀ q, (a.before.map Prod.snd ++ r :: a.after.map Prod.snd).getLast? = some q → slack ≤ q.slice.length := by
  intro q hq
  rw [List.getLast?_append, List.getLast?_cons] at hq
  cases hg : (a.after.map Prod.snd).getLast? with
  | none =>
    rw [hg] at hq
    simp at hq
    subst hq
    exact hr
  | some p =>
    rw [hg] at hq
    simp at hq
    subst hq
    rw [List.getLast?_map] at hg
    obtain ⟨p, hp, rfl⟩ := Option.map_eq_some_iff.1 hg
    exact ha.last p hp

omit [ScrollRule] [Crc32] in
private theorem countdown_le (period : Byte) (k : Nat) :
    dtimCountdown period.toNat k ≤ period.toNat ∧ (BitVec.ofNat 8 (dtimCountdown period.toNat k)).toNat =
      dtimCountdown period.toNat k := by
  have h : dtimCountdown period.toNat k ≤ period.toNat :=
    Nat.le_trans (Nat.mod_le _ _) (Nat.sub_le _ _)
  have := period.isLt
  exact ⟨h, by rw [BitVec.toNat_ofNat, Nat.mod_eq_of_lt (by omega)]⟩

/-- Every beacon is written and arrives, for all periods, and the station computes its time plus the number of beacons to
wait.  (Period 0 is not excluded here.) -/
private theorem beacon_heard (a : Beaconing) (ha : a.Fine) (k : Nat) (ht : a.time k < 2 ^ 64) :
    ∃ size, ∀ buf : Bytes, size ≤ buf.length → ∃ frame, a.send buf k = .ok frame ∧
      heardBeacon a.fcs frame = .ok (some (a.time (k + if dtimCountdown a.period.toNat k = 0 then a.period.toNat
        else dtimCountdown a.period.toNat k), (a.control k).traffic_indicator)) := by
  have hsl := slack_le
  obtain ⟨map, hm, hl, hst⟩ := ha.bits k
  obtain ⟨hle, hcount⟩ := countdown_le a.period k
  have hd : ¬ a.period < BitVec.ofNat 8 (dtimCountdown a.period.toNat k) := by
    intro h
    have : a.period.toNat < (BitVec.ofNat 8 (dtimCountdown a.period.toNat k)).toNat := h
    omega
  obtain ⟨te, h1, ⟨x, hx⟩, hfound⟩ := c54_tim_partial
    ⟨BitVec.ofNat 8 (dtimCountdown a.period.toNat k), a.period, some ⟨a.control k, some (a.bits k)⟩⟩ (a.control k) (a.bits k)
    map hd rfl hm hst hl
  obtain ⟨y, hch⟩ := chainAround_of a.before a.after (fun p hp => (ha.items p hp).1) _ _ x hx
  obtain ⟨size, hA⟩ := c65_bodies_partial.2.2.2.2.1 a.header ha.ht
    ⟨BitVec.ofNat 64 (a.time k), a.interval, a.capabilities,
      (chainAround (a.before.map Prod.fst) (a.after.map Prod.fst) (.typed te)).obj⟩ _ _ y rfl hch
    (last_of a ha _ (by simp; omega)) trivial a.fcs _ (fun r => r.2) [] [] (by simp)
  refine ⟨size, fun buf hb => ?_⟩
  obtain ⟨out, n, els, h2, h3, h4⟩ := hA buf hb
  refine ⟨out.take n, ?_, ?_⟩
  · simp only [Beaconing.send, h1, Res.ok_bind, beaconWith]
    erw [h2]
    rfl
  · have hf := hfound els _ _ h4 (by
      intro r hr
      obtain ⟨p, hp, rfl⟩ := List.mem_map.1 hr
      exact (ha.items p (by simp [hp])).2)
    unfold heardBeacon
    erw [h3]
    simp only [wakeUp, hf, Res.ok_bind, c57_beacon_interval, timeUnit, BeaconLikeBody.timestampMicros]
    have hts : (BitVec.ofNat 64 (a.time k)).toNat = a.time k := by rw [BitVec.toNat_ofNat, Nat.mod_eq_of_lt ht]
    have h0 : (BitVec.ofNat 8 (dtimCountdown a.period.toNat k) = 0) = (dtimCountdown a.period.toNat k = 0) :=
      propext ⟨fun h => by rw [← hcount, h]; rfl, fun h => by rw [h]; rfl⟩
    rw [hts]
    simp only [h0, hcount, Beaconing.time, beaconTime, Nat.add_mul]
    rfl

/-- Beacon `k` tells a station the time of the next beacon with group traffic, and the flag.  The buffer may be of any size
that is large enough for this beacon.  Partial: HT control agrees with the order bit, the bitmap is not from `new_static`,
and under the strict rule of `scroll` the last element is not empty. -/
theorem c102_beacon_partial (a : Beaconing) (ha : a.Fine) (hp : 0 < a.period.toNat) (k : Nat) (ht : a.time k < 2 ^ 64) :
    ∃ size, ∀ buf : Bytes, size ≤ buf.length → ∃ frame j, a.send buf k = .ok frame ∧
      heardBeacon a.fcs frame = .ok (some (a.time j, (a.control k).traffic_indicator)) ∧ NextDtim a.period.toNat k j := by
  obtain ⟨size, h⟩ := beacon_heard a ha k ht
  refine ⟨size, fun buf hb => ?_⟩
  obtain ⟨frame, h1, h2⟩ := h buf hb
  exact ⟨frame, _, h1, h2, (c102_next a.period.toNat k hp).1⟩

omit [ScrollRule] [Crc32] in
private theorem next_multiple (period k : Nat) (hp : 0 < period) :
    (k + if dtimCountdown period k = 0 then period else dtimCountdown period k) = period * (k / period + 1) := by
  refine next_unique (c102_next period k hp).1 ⟨?_, Nat.dvd_mul_right .., ?_⟩
  · have := Nat.mod_lt k hp
    have := Nat.div_add_mod k period
    rw [Nat.mul_add, Nat.mul_one]; omega
  · rintro i h1 h2 ⟨j, rfl⟩
    have h3 : j < k / period + 1 := Nat.lt_of_mul_lt_mul_left h2
    have h4 : period * j ≤ period * (k / period) := Nat.mul_le_mul_left _ (by omega)
    have := Nat.div_add_mod k period
    omega

private theorem air_at (a : Beaconing) (hi : 0 < a.interval.toNat) (buf : Bytes) (k : Nat) :
    a.air buf (a.time k) = some (a.send buf k) := by
  have h : 0 < 1024 * a.interval.toNat := by omega
  rw [Beaconing.air, Beaconing.time, beaconTime, if_pos (Nat.mul_mod_left ..), Nat.mul_div_cancel _ h]

/-- One step of sleeping. -/
private theorem nap_step (a : Beaconing) (hi : 0 < a.interval.toNat) (buf : Bytes) (k next : Nat) (flag : Bool) (frame : Bytes)
    (h1 : a.send buf k = .ok frame) (h2 : heardBeacon a.fcs frame = .ok (some (next, flag))) (n : Nat) :
    nap a.fcs (a.air buf) (n + 1) (a.time k) = (nap a.fcs (a.air buf) n next).bind fun l => .ok ((a.time k, flag) :: l) := by
  rw [nap, air_at a hi]
  simp only [h1, Res.ok_bind, h2]
  rfl

/-- However often it wakes, a station that has heard beacon `k` is awake exactly at the beacons after which group traffic is
sent: the next multiple of the period, the one after it, and so on, none left out and no other one in between, and knows the
flag of each.  Partial as before. -/
theorem c102_naps_partial (a : Beaconing) (ha : a.Fine) (hi : 0 < a.interval.toNat) (hp : 0 < a.period.toNat) (k n : Nat)
    (ht : ∀ j, j ≤ n → a.time (a.period.toNat * (k / a.period.toNat + j)) < 2 ^ 64) (hk : a.time k < 2 ^ 64) :
    ∃ size, ∀ buf : Bytes, size ≤ buf.length →
      nap a.fcs (a.air buf) (n + 1) (a.time k) =
        .ok ((k :: (List.range n).map fun j => a.period.toNat * (k / a.period.toNat + 1 + j)).map fun j =>
          (a.time j, (a.control j).traffic_indicator)) := by
  induction n generalizing k with
  | zero =>
    obtain ⟨size, h⟩ := beacon_heard a ha k hk
    refine ⟨size, fun buf hb => ?_⟩
    obtain ⟨frame, h1, h2⟩ := h buf hb
    rw [nap_step a hi buf k _ _ frame h1 h2]
    rfl
  | succ n ih =>
    obtain ⟨size, h⟩ := beacon_heard a ha k hk
    have hdiv : a.period.toNat * (k / a.period.toNat + 1) / a.period.toNat = k / a.period.toNat + 1 :=
      Nat.mul_div_cancel_left _ hp
    obtain ⟨size', h'⟩ := ih (a.period.toNat * (k / a.period.toNat + 1)) (by
      intro j hj
      rw [hdiv]
      have := ht (j + 1) (by omega)
      rwa [show k / a.period.toNat + (j + 1) = k / a.period.toNat + 1 + j by omega] at this) (ht 1 (by omega))
    refine ⟨max size size', fun buf hb => ?_⟩
    obtain ⟨frame, h1, h2⟩ := h buf (by omega)
    rw [next_multiple _ _ hp] at h2
    rw [nap_step a hi buf k _ _ frame h1 h2, h' buf (by omega), hdiv]
    have e : ((fun j => a.period.toNat * (k / a.period.toNat + 1 + j)) ∘ Nat.succ) =
        fun j => a.period.toNat * (k / a.period.toNat + 1 + 1 + j) := by
      funext j
      simp only [Function.comp_apply, Nat.succ_eq_add_one]
      congr 1
      omega
    simp only [Res.bind, List.range_succ_eq_map, List.map_cons, List.map_map, Nat.add_zero]
    rw [← e]

/-- Violation: a DTIM period of zero, which the standard reserves, is written and accepted.  A station that relies on it
computes the time of the very beacon it has just heard, again and again. -/
theorem c102_zero_wrong (a : Beaconing) (ha : a.Fine) (hi : 0 < a.interval.toNat) (hp : a.period = 0) (k n : Nat)
    (hk : a.time k < 2 ^ 64) :
    ∃ size, ∀ buf : Bytes, size ≤ buf.length →
      nap a.fcs (a.air buf) n (a.time k) = .ok (List.replicate n (a.time k, (a.control k).traffic_indicator)) := by
  obtain ⟨size, h⟩ := beacon_heard a ha k hk
  refine ⟨size, fun buf hb => ?_⟩
  obtain ⟨frame, h1, h2⟩ := h buf hb
  rw [hp] at h2
  have e : (k + if dtimCountdown (0 : Byte).toNat k = 0 then (0 : Byte).toNat else dtimCountdown (0 : Byte).toNat k) = k := by
    simp [dtimCountdown]
  rw [e] at h2
  induction n with
  | zero => rfl
  | succ n ih =>
    rw [nap_step a hi buf k _ _ frame h1 h2, ih]
    rfl

/-- Nothing panics, unless a check sequence is expected in fewer than four bytes. -/
theorem c102_panics_iff (fcs : Bool) (frame : Bytes) :
    heardBeacon fcs frame = .panic ↔ fcs = true ∧ frame.length < 4 := by
  rw [← (match_mgmt readBeaconLike readBeaconLike_safe (fun r => r.2) [.Beacon] (by decide) fcs frame).1]
  simp only [List.map_cons, List.map_nil]
  unfold heardBeacon
  split
  · rename_i hr
    simp [hr]
  · rename_i hr
    simp [hr]
  · rename_i b hr
    obtain ⟨raws, hraws⟩ := elementsOf_exists b.elements
    rw [hr, c102_exact _ _ hraws]
    simp

/-- Whatever is received, a station takes times only from beacons, and only as their octets say: the timestamp is the first
eight octets of the body and the interval the next two. -/
theorem c102_heard_only (fcs : Bool) (frame : Bytes) (next : Nat) (flag : Bool)
    (h : heardBeacon fcs frame = .ok (some (next, flag))) :
    ∃ (h : ManagementFrameHeader) (b0 : Byte) (stamp interval caps els : Bytes) (raws : List RawElement) (count period : Nat),
      frame = withFcs fcs (b0 :: h.fcf_flags.bits :: (mgmtHeaderWire h ++ (stamp ++ interval ++ caps ++ els))) ∧
      (b0.toNat / 4 % 4, b0.toNat / 16) = (0, 8) ∧ HtConsistent h ∧ stamp.length = 8 ∧ interval.length = 2 ∧
      caps.length = 2 ∧ ElementsOf els raws ∧ dtimSaid raws = some (count, period, flag) ∧
      next = (fromLE 64 stamp).toNat + (if count = 0 then period else count) * (1024 * (fromLE 16 interval).toNat) := by
  have hm := (match_mgmt readBeaconLike readBeaconLike_safe (fun r => r.2) [.Beacon] (by decide) fcs frame).2.2
  simp only [List.map_cons, List.map_nil] at hm
  unfold heardBeacon at h
  split at h
  · cases h
  · cases h
  · rename_i j b hr
    obtain ⟨inner, hin, k, hk, hkind, ⟨hd, body⟩, n, hread, hx⟩ := hm _ _ hr
    have hx : b = body := hx
    subst hx
    have hbr : Bounded readBeaconLike := by
      intro inp b k h
      obtain ⟨_, _, _, _, h, _⟩ := c22_beacon.parse inp b k h
      omega
    obtain ⟨b0, rest, m, h1, h2, h3, h4, -⟩ := c23_parse _ hbr false inner hd b n hread
    obtain ⟨fx, h5, -, rfl, -⟩ := c22_beacon.parse _ _ _ h4
    obtain ⟨raws, hraws⟩ := elementsOf_exists b.elements
    rw [c102_exact _ _ hraws] at h
    simp only [Res.ok.injEq, Option.map_eq_some_iff, Prod.mk.injEq] at h
    obtain ⟨⟨count, period, flag'⟩, hs, h6, rfl⟩ := h
    refine ⟨hd, b0, toLE b.timestamp, toLE b.beacon_interval, toLE b.capabilities_info.bits, b.elements, raws, count, period,
      ?_, ?_, h3, by simp, by simp, by simp, hraws, hs, ?_⟩
    · rw [hin, h1, h5]
      rfl
    · obtain ⟨c0, c1, r', hc, hk1, hk2, -⟩ := hkind
      rw [h1] at hc
      simp only [withFcs, Bool.false_eq_true, if_false, List.cons.injEq] at hc
      obtain ⟨rfl, -⟩ := hc
      rw [hk1, hk2]
      simp only [List.mem_cons, List.not_mem_nil, or_false] at hk
      subst hk
      rfl
    · rw [fromLE_toLE rfl, fromLE_toLE rfl]
      exact h6.symm

/-- An access point with 100 time units between beacons, whose beacon 9 has the flag. -/
private def some_ap (period : Byte) : Beaconing :=
  ⟨⟨⟨0⟩, 0, Arr.zero 6, Arr.zero 6, Arr.zero 6, ⟨0⟩, none⟩, ⟨0⟩, 100, period,
    fun k => if k = 9 then ⟨1⟩ else ⟨0⟩, fun _ => .slice [2], [(.raw ⟨0, [97]⟩, ⟨0, [97]⟩)], [], true⟩

omit [Crc32] in
private theorem some_ap_fine (period : Byte) : (some_ap period).Fine := by
  refine ⟨?_, ?_, ?_, ?_⟩
  · show HtConsistent ⟨⟨0⟩, 0, Arr.zero 6, Arr.zero 6, Arr.zero 6, ⟨0⟩, none⟩
    unfold HtConsistent; decide
  · intro p hp
    obtain rfl := List.mem_singleton.1 (show p ∈ [(.raw ⟨0, [97]⟩, ⟨0, [97]⟩)] from hp)
    exact ⟨⟨_, .raw _ (by decide)⟩, show (0 : Byte) ≠ 5 by decide⟩
  · intro p hp
    cases (show ([] : List (ChainItem × RawElement)).getLast? = some p from hp)
  · exact fun _ => ⟨[2], rfl, by decide, fun b n h => by cases h⟩

/-- Concrete case: period 3; after beacon 4 the beacons 6, 9 and 12 are heard. -/
example : ∃ size, ∀ buf : Bytes, size ≤ buf.length →
    nap true ((some_ap 3).air buf) 4 409600 = .ok [(409600, false), (614400, false), (921600, true), (1228800, false)] := by
  obtain ⟨size, h⟩ := c102_naps_partial (some_ap 3) (some_ap_fine 3) (by decide) (by decide) 4 3 (by
    intro j hj
    have : j = 0 ∨ j = 1 ∨ j = 2 ∨ j = 3 := by omega
    rcases this with rfl | rfl | rfl | rfl <;> decide) (by decide)
  have e : (some_ap 3).time 4 = 409600 := by decide
  rw [e] at h
  exact ⟨size, fun buf hb => (h buf hb).trans (by decide)⟩

/-- Concrete case: period 0; the station stays with beacon 9. -/
example : ∃ size, ∀ buf : Bytes, size ≤ buf.length →
    nap true ((some_ap 0).air buf) 3 921600 = .ok [(921600, true), (921600, true), (921600, true)] := by
  obtain ⟨size, h⟩ := c102_zero_wrong (some_ap 0) (some_ap_fine 0) (by decide) rfl 9 3 (by decide)
  have e : (some_ap 0).time 9 = 921600 := by decide
  rw [e] at h
  exact ⟨size, fun buf hb => (h buf hb).trans (by decide)⟩

/-- Concrete case: octets with count 1 and period 3 in the beacon of time 204800. -/
example : (let _ : ScrollRule := ⟨true⟩
    wakeUp ⟨204800, 100, ⟨0⟩, [0, 1, 97, 5, 4, 1, 3, 0, 2]⟩) = .ok (some (307200, false)) := by decide +kernel

end Verif
