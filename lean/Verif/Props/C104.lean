import Verif.Props.C95
/-!
# C104: stations of an ad-hoc network agree on the time

A network without access point keeps time by its beacons: a station that hears a beacon of its network with a later time than
its own takes it over (11.1.3.5 of the standard).  The stations are not in the crate; they are written here with its
functions.  Each has a clock, which is a fixed amount ahead of a common one until it is set; frames take no time.
-/
namespace Verif

namespace Spec

/-! ## What should happen -/

/-- Something on the air at a time: a beacon of one of the stations, an announcement of a different network, or any other
frame; and the stations that hear it. -/
inductive AdHocEvent where
  | beacon (time : Nat) (sender : Nat) (hearers : List Nat)
  | foreign (time : Nat) (response : Bool) (around : Surroundings) (name : Str) (hearers : List Nat)
  | other (time : Nat) (frame : Bytes) (hearers : List Nat)

/-- Who can know what the stations of `S` knew in the beginning. -/
def informed : List AdHocEvent → (Nat → Prop) → Nat → Prop
  | [], S => S
  | .beacon _ i hs :: l, S => informed l fun j => S j ∨ S i ∧ j ∈ hs
  | _ :: l, S => informed l S

/-! ## The stations -/

/-- The network.  What a station says beside the time and the name may change all the time. -/
structure AdHoc where
  fcs : Bool
  bssid : Mac
  name : Str
  around : Nat → Nat → Surroundings

/-- A frame is of this network: the flag for networks without access point, the address and the name agree. -/
def AdHoc.own (n : AdHoc) (h : ManagementFrameHeader) (c : CapabilitiesInformation) (name : Option Str) : Bool :=
  c.is_ibss && decide (h.bssid = n.bssid) && decide (name = some n.name)

/-- The stations say so; HT control as in the frame control field (C21), no second name. -/
structure AdHoc.Fine [ScrollRule] (n : AdHoc) : Prop where
  around : ∀ i t, (n.around i t).Fine
  flag : ∀ i t, (n.around i t).fields.capabilities_info.is_ibss = true
  bssid : ∀ i t, (n.around i t).header.bssid = n.bssid
  name : slack ≤ n.name.bytes.length ∧ n.name.bytes.length ≤ 32

/-- Different networks differ in one of the three, other frames are no beacons and long enough for a check sequence. -/
def AdHocEvent.Fine [ScrollRule] (n : AdHoc) : AdHocEvent → Prop
  | .beacon .. => True
  | .foreign _ _ a name _ => a.Fine ∧ slack ≤ name.bytes.length ∧ name.bytes.length ≤ 32 ∧
    (a.fields.capabilities_info.is_ibss = false ∨ a.header.bssid ≠ n.bssid ∨ name ≠ n.name)
  | .other _ f _ => ¬ IsKind .Beacon f ∧ ¬ IsKind .ProbeResponse f ∧ (n.fcs = true → 4 ≤ f.length)

/-- The time of an event. -/
def AdHocEvent.time : AdHocEvent → Nat
  | .beacon t .. | .foreign t .. | .other t .. => t

/-- Who hears it. -/
def AdHocEvent.hearers : AdHocEvent → List Nat
  | .beacon _ _ l | .foreign _ _ _ _ l | .other _ _ l => l

variable [ScrollRule] [Crc32]

/-- The frame of an event, if the clocks are so far ahead. -/
def AdHocEvent.frame (n : AdHoc) (buf : Bytes) (ahead : Nat → Nat) : AdHocEvent → Res Bytes
  | .beacon t i _ =>
    let a := n.around i t
    announce false { a with fields := { a.fields with timestamp := BitVec.ofNat 64 (t + ahead i) } } n.name n.fcs buf
  | .foreign _ r a name _ => announce r a name n.fcs buf
  | .other _ f _ => .ok f

/-- How far ahead the clock of a station is after a frame. -/
def AdHoc.hear (n : AdHoc) (t ahead : Nat) (frame : Bytes) : Res Nat :=
  match matchFrames frame (if n.fcs then some true else none)
    [armOf MgmtKind.Beacon.frame (readMgmtFrame readBeaconLike) fun r => r,
      armOf MgmtKind.ProbeResponse.frame (readMgmtFrame readBeaconLike) fun r => r] with
  | .panic => .panic
  | .err _ => .ok ahead
  | .ok (_, h, b) => do
    let name ← bodySsid b.elements
    if n.own h b.capabilities_info name = true ∧ t + ahead < b.timestampMicros then pure (b.timestampMicros - t)
    else pure ahead

/-- All who hear a frame. -/
def AdHoc.hearAll (n : AdHoc) (t : Nat) (frame : Bytes) : List Nat → (Nat → Nat) → Res (Nat → Nat)
  | [], ahead => .ok ahead
  | j :: l, ahead => do
    let x ← n.hear t (ahead j) frame
    n.hearAll t frame l fun k => if k = j then x else ahead k

/-- All that happens. -/
def AdHoc.run (n : AdHoc) (buf : Bytes) : List AdHocEvent → (Nat → Nat) → Res (Nat → Nat)
  | [], ahead => .ok ahead
  | e :: l, ahead => do
    let frame ← e.frame n buf ahead
    let ahead ← n.hearAll e.time frame e.hearers ahead
    n.run buf l ahead

end Spec

open Spec

variable [ScrollRule] [Crc32]

/-! ## Frames -/

/-- The elements and the fields of an announcement arrive. -/
private theorem announced (resp : Bool) (a : Surroundings) (ha : a.Fine) (name : Str)
    (hn : slack ≤ name.bytes.length ∧ name.bytes.length ≤ 32) (fcs : Bool) :
    ∃ size, ∀ buf : Bytes, size ≤ buf.length → ∃ frame els j, announce resp a name fcs buf = .ok frame ∧
      matchFrames frame (if fcs then some true else none)
        [armOf MgmtKind.Beacon.frame (readMgmtFrame readBeaconLike) fun r => r,
          armOf MgmtKind.ProbeResponse.frame (readMgmtFrame readBeaconLike) fun r => r] =
        .ok (j, a.header, ⟨a.fields.timestamp, a.fields.beacon_interval, a.fields.capabilities_info, els⟩) ∧
      bodySsid els = .ok (some name) := by
  have he : SSIDLikeElement.new name = some ⟨name⟩ := (c10_new name _).2 ⟨hn.2, rfl⟩
  obtain ⟨x, hx⟩ := announced_item name _ he
  obtain ⟨y, hch⟩ := chainAround_of a.before a.after (fun p hp => (ha.items p hp).1) _ _ x hx
  have hlast : ∀ q, (a.before.map Prod.snd ++ (⟨0, name.bytes⟩ : RawElement) :: a.after.map Prod.snd).getLast? = some q →
      slack ≤ q.slice.length := by
    intro q hq
    rw [List.getLast?_append, List.getLast?_cons] at hq
    cases hg : (a.after.map Prod.snd).getLast? with
    | none =>
      rw [hg] at hq
      simp at hq
      subst hq
      exact hn.1
    | some r' =>
      rw [hg] at hq
      simp at hq
      subst hq
      rw [List.getLast?_map] at hg
      obtain ⟨p, hp, rfl⟩ := Option.map_eq_some_iff.1 hg
      exact ha.last p hp
  cases resp
  · obtain ⟨size, hA⟩ := c65_bodies_partial.2.2.2.2.1 a.header ha.ht
      ⟨a.fields.timestamp, a.fields.beacon_interval, a.fields.capabilities_info, (a.chain (.typed (ssidElem ⟨name⟩))).obj⟩ _ _ y
      rfl hch hlast trivial fcs _ (fun r => r) []
      [armOf MgmtKind.ProbeResponse.frame (readMgmtFrame readBeaconLike) fun r => r] (by simp)
    refine ⟨size, fun buf hb => ?_⟩
    obtain ⟨out, n, els, h1, h2, h3⟩ := hA buf hb
    refine ⟨out.take n, els, _, ?_, h2, announced_ssid a ha name hn.1 hn.2 els h3⟩
    simp only [announce, he, announceWith]
    erw [h1]
    rfl
  · obtain ⟨size, hA⟩ := c65_bodies_partial.2.2.2.1 a.header ha.ht
      ⟨a.fields.timestamp, a.fields.beacon_interval, a.fields.capabilities_info, (a.chain (.typed (ssidElem ⟨name⟩))).obj⟩ _ _ y
      rfl hch hlast trivial fcs _ (fun r => r)
      [armOf MgmtKind.Beacon.frame (readMgmtFrame readBeaconLike) fun r => r] [] (by
        intro b hb
        obtain rfl := List.mem_singleton.1 hb
        exact .inr (.inr ⟨.Beacon, .inl (by decide), rfl⟩))
    refine ⟨size, fun buf hb => ?_⟩
    obtain ⟨out, n, els, h1, h2, h3⟩ := hA buf hb
    refine ⟨out.take n, els, _, ?_, h2, announced_ssid a ha name hn.1 hn.2 els h3⟩
    simp only [announce, he, announceWith]
    erw [h1]
    rfl

/-- One event, as it should be. -/
private def stepTime (e : AdHocEvent) (ahead : Nat → Nat) : Nat → Nat :=
  match e with
  | .beacon _ i hs => fun j => if j ∈ hs then max (ahead j) (ahead i) else ahead j
  | _ => ahead

omit [ScrollRule] [Crc32] in
private theorem update_same (f : Nat → Nat) (j : Nat) : (fun k => if k = j then f j else f k) = f := by
  funext k
  by_cases h : k = j <;> simp [h]

private theorem hearAll_ignored (n : AdHoc) (t : Nat) (frame : Bytes) (h : ∀ a, n.hear t a frame = .ok a) (l : List Nat)
    (ahead : Nat → Nat) : n.hearAll t frame l ahead = .ok ahead := by
  induction l generalizing ahead with
  | nil => rfl
  | cons j l ih =>
    simp only [AdHoc.hearAll, h, Res.ok_bind]
    rw [update_same, ih]

private theorem hearAll_taken (n : AdHoc) (t x : Nat) (frame : Bytes) (h : ∀ a, n.hear t a frame = .ok (max a x)) (l : List Nat)
    (ahead : Nat → Nat) :
    n.hearAll t frame l ahead = .ok fun j => if j ∈ l then max (ahead j) x else ahead j := by
  induction l generalizing ahead with
  | nil => simp [AdHoc.hearAll]
  | cons j l ih =>
    simp only [AdHoc.hearAll, h, Res.ok_bind]
    rw [ih]
    congr 1
    funext k
    by_cases hk : k = j
    · subst hk
      by_cases hm : k ∈ l <;> simp [hm]
    · by_cases hm : k ∈ l <;> simp [hm, hk]

private theorem event_done (n : AdHoc) (hn : n.Fine) (e : AdHocEvent) (he : e.Fine n) (ahead : Nat → Nat)
    (ht : ∀ t i hs, e = .beacon t i hs → t + ahead i < 2 ^ 64) :
    ∃ size, ∀ buf : Bytes, size ≤ buf.length → ∃ frame, e.frame n buf ahead = .ok frame ∧
      n.hearAll e.time frame e.hearers ahead = .ok (stepTime e ahead) := by
  cases e with
  | beacon t i hs =>
    have ht := ht t i hs rfl
    have ha := hn.around i t
    obtain ⟨size, h⟩ := announced false
      { n.around i t with fields := { (n.around i t).fields with timestamp := BitVec.ofNat 64 (t + ahead i) } }
      ⟨ha.1, ha.2, ha.3⟩ n.name hn.name n.fcs
    refine ⟨size, fun buf hb => ?_⟩
    obtain ⟨frame, els, j, h1, h2, h3⟩ := h buf hb
    refine ⟨frame, h1, hearAll_taken n t (ahead i) frame (fun a => ?_) hs ahead⟩
    unfold AdHoc.hear
    rw [h2]
    simp only [h3, Res.ok_bind, BeaconLikeBody.timestampMicros]
    have e1 : (BitVec.ofNat 64 (t + ahead i)).toNat = t + ahead i := by rw [BitVec.toNat_ofNat, Nat.mod_eq_of_lt ht]
    have e2 : n.own (n.around i t).header (n.around i t).fields.capabilities_info (some n.name) = true := by
      simp [AdHoc.own, hn.flag, hn.bssid]
    simp only [e1, e2, true_and]
    by_cases hl : a < ahead i
    · rw [if_pos (by omega), Nat.max_eq_right (by omega)]
      show Res.ok _ = _
      congr 1
      omega
    · rw [if_neg (by omega), Nat.max_eq_left (by omega)]
      rfl
  | foreign t r a name hs =>
    obtain ⟨ha, hl1, hl2, hd⟩ := he
    obtain ⟨size, h⟩ := announced r a ha name ⟨hl1, hl2⟩ n.fcs
    refine ⟨size, fun buf hb => ?_⟩
    obtain ⟨frame, els, j, h1, h2, h3⟩ := h buf hb
    refine ⟨frame, h1, hearAll_ignored n t frame (fun x => ?_) hs ahead⟩
    unfold AdHoc.hear
    rw [h2]
    simp only [h3, Res.ok_bind]
    have e2 : n.own a.header a.fields.capabilities_info (some name) = false := by
      rcases hd with h | h | h <;> simp [AdHoc.own, h]
    rw [e2, if_neg (by simp)]
    rfl
  | other t f hs =>
    obtain ⟨h1, h2, h3⟩ := he
    refine ⟨0, fun buf _ => ⟨f, rfl, hearAll_ignored n t f (fun x => ?_) hs ahead⟩⟩
    have hm := (match_mgmt readBeaconLike readBeaconLike_safe (fun r => r) [.Beacon, .ProbeResponse] (by decide) n.fcs f).2.1
    simp only [List.map_cons, List.map_nil] at hm
    obtain ⟨e, he⟩ := hm (by
      intro k hk
      simp only [List.mem_cons, List.not_mem_nil, or_false] at hk
      rcases hk with rfl | rfl
      · exact h1
      · exact h2) h3
    unfold AdHoc.hear
    rw [he]

/-! ## All that happens -/

omit [ScrollRule] [Crc32] in
private theorem informed_iff (es : List AdHocEvent) (S : Nat → Prop) (j : Nat) :
    informed es S j ↔ ∃ i, S i ∧ informed es (· = i) j := by
  induction es generalizing S with
  | nil => exact ⟨fun h => ⟨j, h, rfl⟩, fun ⟨i, h, e⟩ => by cases e; exact h⟩
  | cons e l ih =>
    cases e with
    | beacon t s hs =>
      simp only [informed]
      rw [ih]
      constructor
      · rintro ⟨k, h | ⟨h, hk⟩, hi⟩
        · exact ⟨k, h, (ih _).2 ⟨k, .inl rfl, hi⟩⟩
        · exact ⟨s, h, (ih _).2 ⟨k, .inr ⟨rfl, hk⟩, hi⟩⟩
      · rintro ⟨i, h, hi⟩
        obtain ⟨k, h' | ⟨h', hk⟩, hi'⟩ := (ih _).1 hi
        · subst h'
          exact ⟨k, .inl h, hi'⟩
        · subst h'
          exact ⟨k, .inr ⟨h, hk⟩, hi'⟩
    | foreign _ _ _ _ _ => exact ih S
    | other _ _ _ => exact ih S

omit [ScrollRule] [Crc32] in
private theorem informed_self (es : List AdHocEvent) (S : Nat → Prop) (j : Nat) (h : S j) : informed es S j := by
  induction es generalizing S with
  | nil => exact h
  | cons e l ih =>
    cases e with
    | beacon t s hs => exact ih _ (.inl h)
    | foreign _ _ _ _ _ => exact ih S h
    | other _ _ _ => exact ih S h

/-- The clocks in the end. -/
private def finalTime (es : List AdHocEvent) (ahead : Nat → Nat) : Nat → Nat := es.foldl (fun a e => stepTime e a) ahead

omit [ScrollRule] [Crc32] in
private theorem final_is (es : List AdHocEvent) (ahead : Nat → Nat) (j : Nat) :
    (∃ i, informed es (· = i) j ∧ finalTime es ahead j = ahead i) ∧
    ∀ i, informed es (· = i) j → ahead i ≤ finalTime es ahead j := by
  induction es generalizing ahead with
  | nil => exact ⟨⟨j, rfl, rfl⟩, fun i h => by cases h; exact Nat.le_refl _⟩
  | cons e l ih =>
    cases e with
    | beacon t s hs =>
      obtain ⟨⟨k, hk, he⟩, hle⟩ := ih (stepTime (.beacon t s hs) ahead)
      constructor
      · have : stepTime (.beacon t s hs) ahead k = ahead k ∨ (k ∈ hs ∧ stepTime (.beacon t s hs) ahead k = ahead s) := by
          simp only [stepTime]
          by_cases hm : k ∈ hs
          · rw [if_pos hm]
            rcases Nat.le_total (ahead k) (ahead s) with h | h
            · exact .inr ⟨hm, Nat.max_eq_right h⟩
            · exact .inl (Nat.max_eq_left h)
          · exact .inl (if_neg hm)
        rcases this with h | ⟨hm, h⟩
        · exact ⟨k, (informed_iff l _ _).2 ⟨k, .inl rfl, hk⟩, he.trans h⟩
        · exact ⟨s, (informed_iff l _ _).2 ⟨k, .inr ⟨rfl, hm⟩, hk⟩, he.trans h⟩
      · intro i hi
        obtain ⟨k, hk | ⟨hk, hm⟩, hk'⟩ := (informed_iff _ _ _).1 (show informed l _ j from hi)
        · subst hk
          refine Nat.le_trans ?_ (hle k hk')
          simp only [stepTime]
          split
          · exact Nat.le_max_left ..
          · exact Nat.le_refl _
        · subst hk
          refine Nat.le_trans ?_ (hle k hk')
          simp only [stepTime, hm, if_true]
          exact Nat.le_max_right ..
    | foreign _ _ _ _ _ => exact ih ahead
    | other _ _ _ => exact ih ahead

private theorem run_is (n : AdHoc) (hn : n.Fine) (es : List AdHocEvent) (he : ∀ e ∈ es, e.Fine n) (M : Nat) (ahead : Nat → Nat)
    (hM : ∀ i, ahead i ≤ M) (ht : ∀ e ∈ es, e.time + M < 2 ^ 64) :
    ∃ size, ∀ buf : Bytes, size ≤ buf.length → n.run buf es ahead = .ok (finalTime es ahead) := by
  induction es generalizing ahead with
  | nil => exact ⟨0, fun _ _ => rfl⟩
  | cons e l ih =>
    obtain ⟨size, h⟩ := event_done n hn e (he e (.head _)) ahead (by
      intro t i hs heq
      have := ht e (.head _)
      rw [heq] at this
      have := hM i
      simp only [AdHocEvent.time] at *
      omega)
    obtain ⟨size', h'⟩ := ih (fun x hx => he x (.tail _ hx)) (stepTime e ahead) (by
      intro i
      cases e with
      | beacon t s hs =>
        have h1 := hM i
        have h2 := hM s
        simp only [stepTime]
        split <;> omega
      | foreign _ _ _ _ _ => exact hM i
      | other _ _ _ => exact hM i) (fun x hx => ht x (.tail _ hx))
    refine ⟨max size size', fun buf hb => ?_⟩
    obtain ⟨frame, h1, h2⟩ := h buf (by omega)
    simp only [AdHoc.run, h1, Res.ok_bind, h2]
    exact h' buf (by omega)

/-- Whatever happens, and whoever hears what: in the end the clock of a station is the one that was furthest ahead of those
whose word has come to it, by any number of beacons.  Partial: HT control agrees with the order bit and, under the strict rule
of `scroll`, names and last elements are not empty. -/
theorem c104_times_partial (n : AdHoc) (hn : n.Fine) (es : List AdHocEvent) (he : ∀ e ∈ es, e.Fine n) (M : Nat)
    (ahead : Nat → Nat) (hM : ∀ i, ahead i ≤ M) (ht : ∀ e ∈ es, e.time + M < 2 ^ 64) :
    ∃ size, ∀ buf : Bytes, size ≤ buf.length → ∃ final, n.run buf es ahead = .ok final ∧
      ∀ j, (∃ i, informed es (· = i) j ∧ final j = ahead i) ∧ ∀ i, informed es (· = i) j → ahead i ≤ final j := by
  obtain ⟨size, h⟩ := run_is n hn es he M ahead hM ht
  exact ⟨size, fun buf hb => ⟨_, h buf hb, final_is es ahead⟩⟩

/-- So no clock is set back, none is set to a time that nobody had, and all whom the word of the one furthest ahead has reached
agree.  Partial as before. -/
theorem c104_agree_partial (n : AdHoc) (hn : n.Fine) (es : List AdHocEvent) (he : ∀ e ∈ es, e.Fine n) (first : Nat)
    (ahead : Nat → Nat) (hM : ∀ i, ahead i ≤ ahead first) (ht : ∀ e ∈ es, e.time + ahead first < 2 ^ 64) :
    ∃ size, ∀ buf : Bytes, size ≤ buf.length → ∃ final, n.run buf es ahead = .ok final ∧
      (∀ j, ahead j ≤ final j ∧ final j ≤ ahead first) ∧ ∀ j, informed es (· = first) j → final j = ahead first := by
  obtain ⟨size, h⟩ := c104_times_partial n hn es he _ ahead hM ht
  refine ⟨size, fun buf hb => ?_⟩
  obtain ⟨final, h1, h2⟩ := h buf hb
  have hle : ∀ j, final j ≤ ahead first := by
    intro j
    obtain ⟨⟨i, -, e⟩, -⟩ := h2 j
    rw [e]
    exact hM i
  exact ⟨final, h1, fun j => ⟨(h2 j).2 j (informed_self es _ j rfl), hle j⟩,
    fun j hj => Nat.le_antisymm (hle j) ((h2 j).2 first hj)⟩

/-! ## Anything received -/

/-- Nothing panics, unless a check sequence is expected in fewer than four bytes. -/
theorem c104_panics_iff (n : AdHoc) (t ahead : Nat) (frame : Bytes) :
    n.hear t ahead frame = .panic ↔ n.fcs = true ∧ frame.length < 4 := by
  rw [← (match_mgmt readBeaconLike readBeaconLike_safe (fun r => r) [.Beacon, .ProbeResponse] (by decide) n.fcs frame).1]
  simp only [List.map_cons, List.map_nil]
  unfold AdHoc.hear
  split
  · rename_i hr
    simp [hr]
  · rename_i hr
    simp [hr]
  · rename_i h b hr
    obtain ⟨name, hname⟩ := c57_ssid_total b.elements
    rw [hr]
    simp only [hname, Res.ok_bind]
    split <;> simp

/-- Whatever is received, a clock is set only by beacons and probe responses with the address and the name of the network and
bit 1 of the capabilities, only forward, and to what their first eight octets say. -/
theorem c104_set_only (n : AdHoc) (t ahead x : Nat) (frame : Bytes) (h : n.hear t ahead frame = .ok x) (hx : x ≠ ahead) :
    ∃ (h : ManagementFrameHeader) (b0 c0 c1 : Byte) (stamp interval els : Bytes) (raws : List RawElement),
      frame = withFcs n.fcs (b0 :: h.fcf_flags.bits :: (mgmtHeaderWire h ++ (stamp ++ interval ++ [c0, c1] ++ els))) ∧
      b0.toNat / 4 % 4 = 0 ∧ (b0.toNat / 16 = 8 ∨ b0.toNat / 16 = 5) ∧ HtConsistent h ∧ stamp.length = 8 ∧
      interval.length = 2 ∧ c0.toNat / 2 % 2 = 1 ∧ h.bssid = n.bssid ∧ ElementsOf els raws ∧ ⟨0, n.name.bytes⟩ ∈ raws ∧
      t + x = (fromLE 64 stamp).toNat ∧ ahead < x := by
  have hm := (match_mgmt readBeaconLike readBeaconLike_safe (fun r => r) [.Beacon, .ProbeResponse] (by decide) n.fcs frame).2.2
  simp only [List.map_cons, List.map_nil] at hm
  unfold AdHoc.hear at h
  split at h
  · cases h
  · cases h; exact absurd rfl hx
  · rename_i j hd b hr
    obtain ⟨inner, hin, k, hk, hkind, ⟨hd', body⟩, m, hread, he⟩ := hm _ _ hr
    obtain ⟨rfl, rfl⟩ : hd = hd' ∧ b = body := by simpa using he
    obtain ⟨name, hname⟩ := c57_ssid_total b.elements
    simp only [hname, Res.ok_bind] at h
    split at h
    rotate_left
    · cases h; exact absurd rfl hx
    rename_i hc
    obtain ⟨hown, hlt⟩ := hc
    simp only [AdHoc.own, Bool.and_eq_true, decide_eq_true_eq] at hown
    obtain ⟨⟨hflag, hb⟩, rfl⟩ := hown
    have hxe : b.timestampMicros - t = x := by simpa using h
    have hbr : Bounded readBeaconLike := by
      intro inp b k h
      obtain ⟨_, _, _, _, h, _⟩ := c22_beacon.parse inp b k h
      omega
    obtain ⟨b0, rest, m, h1, h2, h3, h4, -⟩ := c23_parse _ hbr false inner hd b _ hread
    obtain ⟨fx, h5, -, rfl, -⟩ := c22_beacon.parse _ _ _ h4
    obtain ⟨raws, hraws⟩ := elementsOf_exists b.elements
    obtain ⟨pre, post, hpp, -⟩ := (c57_ssid_some hraws n.name).1 hname
    obtain ⟨c0, c1, hcs⟩ : ∃ c0 c1, toLE b.capabilities_info.bits = [c0, c1] := ⟨_, _, rfl⟩
    have hkk : b0.toNat / 4 % 4 = 0 ∧ b0.toNat / 16 = kindNumber k := by
      obtain ⟨d0, d1, r', hc, hk1, hk2, -⟩ := hkind
      rw [h1] at hc
      simp only [withFcs, Bool.false_eq_true, if_false, List.cons.injEq] at hc
      obtain ⟨rfl, -⟩ := hc
      exact ⟨hk1, hk2⟩
    refine ⟨hd, b0, c0, c1, toLE b.timestamp, toLE b.beacon_interval, b.elements, raws, ?_, hkk.1, ?_, h3, by simp, by simp, ?_,
      hb, hraws, by rw [hpp]; simp, ?_, ?_⟩
    · rw [hin, h1, h5, ← hcs]
      rfl
    · rw [hkk.2]
      simp only [List.mem_cons, List.not_mem_nil, or_false] at hk
      rcases hk with rfl | rfl
      · exact .inl rfl
      · exact .inr rfl
    · have e : c0 = BitVec.ofNat 8 b.capabilities_info.bits.toNat := by
        have : toLE b.capabilities_info.bits = [BitVec.ofNat 8 b.capabilities_info.bits.toNat,
          BitVec.ofNat 8 (b.capabilities_info.bits.toNat / 256)] := rfl
        rw [this] at hcs
        simp at hcs
        exact hcs.1.symm
      have h2 : b.capabilities_info.bits.getLsbD 1 = true := by
        exact hflag
      rw [BitVec.getLsbD, Nat.testBit_eq_decide_div_mod_eq] at h2
      rw [e]
      simp at h2 ⊢
      omega
    · rw [fromLE_toLE rfl]
      simp only [BeaconLikeBody.timestampMicros] at hxe hlt
      omega
    · omega

/-! ## Concrete cases -/

/-- A network `a`, with random address. -/
private def some_adhoc : AdHoc where
  fcs := true
  bssid := ⟨[2, 0, 0, 0, 0, 7], rfl⟩
  name := ⟨[97], by decide⟩
  around := fun i _ => ⟨⟨⟨0⟩, 0, Arr.zero 6, ⟨[2, 0, 0, 0, 0, BitVec.ofNat 8 i], rfl⟩, ⟨[2, 0, 0, 0, 0, 7], rfl⟩, ⟨0⟩, none⟩,
    ⟨0, 100, ⟨2⟩, ()⟩, [], []⟩

omit [Crc32] in
private theorem some_adhoc_fine : some_adhoc.Fine := by
  refine ⟨fun i t => ⟨?_, ?_, ?_⟩, fun i t => ?_, fun _ _ => rfl, ?_⟩
  · show HtConsistent ⟨⟨0⟩, 0, Arr.zero 6, _, _, ⟨0⟩, none⟩
    unfold HtConsistent
    simp only [Option.isSome_none]
    decide
  · intro p hp
    cases (show p ∈ ([] : List (ChainItem × RawElement)) from hp)
  · intro p hp
    cases (show ([] : List (ChainItem × RawElement)).getLast? = some p from hp)
  · show (⟨2⟩ : CapabilitiesInformation).is_ibss = true
    decide
  · have := slack_le
    exact ⟨this, by decide⟩

/-- Station 1 is ahead; its word comes to station 0 by station 2.  Station 3 hears station 2 too early. -/
private def some_events : List AdHocEvent :=
  [.beacon 1000 2 [3], .beacon 2000 1 [2, 4], .other 2500 [0xd4, 0, 0, 0, 1, 1, 1, 1, 1, 1] [0, 1], .beacon 3000 2 [0]]

private def some_clocks (i : Nat) : Nat := if i = 1 then 500 else if i = 2 then 70 else if i = 3 then 20 else 0

example : ∃ size, ∀ buf : Bytes, size ≤ buf.length → ∃ final, some_adhoc.run buf some_events some_clocks = .ok final ∧
    final 0 = 500 ∧ final 1 = 500 ∧ final 2 = 500 ∧ final 3 = 70 ∧ final 4 = 500 ∧ final 5 = 0 := by
  have hfine : ∀ e ∈ some_events, e.Fine some_adhoc := by
    intro e he
    simp only [some_events, List.mem_cons, List.not_mem_nil, or_false] at he
    rcases he with rfl | rfl | rfl | rfl
    · trivial
    · trivial
    · refine ⟨?_, ?_, fun _ => by decide⟩ <;>
      · rintro ⟨b0, b1, rest, h, h1, -⟩
        simp only [List.cons.injEq] at h
        rw [← h.1] at h1
        exact absurd h1 (by decide)
    · trivial
  obtain ⟨size, h⟩ := run_is some_adhoc some_adhoc_fine some_events hfine 500 some_clocks (by
    intro i
    simp only [some_clocks]
    split
    · omega
    · split
      · omega
      · split <;> omega) (by decide)
  exact ⟨size, fun buf hb => ⟨_, h buf hb, by decide⟩⟩

omit [ScrollRule] [Crc32] in
/-- The word of station 1 reaches stations 0, 2 and 4, and not 3. -/
example : (∀ j ∈ [0, 1, 2, 4], informed some_events (· = 1) j) ∧ ¬ informed some_events (· = 1) 3 := by
  simp [some_events, informed]

end Verif
