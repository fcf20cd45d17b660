import Verif.Props.C54
import Verif.Props.C57
import Verif.Props.C65
import Verif.Props.C69
import Verif.Props.C91
/-!
# C95: scanning finds the networks

A station that looks for networks listens to beacons, or asks with probe requests and listens to the answers (11.1.4).  An
access point answers if it is asked for by its name, or if the name in the request is the wildcard, which is the empty one
(11.1.4.3.4).  Neither program is in the crate; they are written here with the functions of the crate.
-/
namespace Verif

namespace Spec

/-- 9.4.2.2: a name is up to 32 octets, whatever they are. -/
def IsNetworkName (l : Bytes) : Prop := l.length ≤ 32

/-- 11.1.4.3.4: is the access point with the name `own` asked for by a request for `asked`? -/
def asksFor (own asked : Bytes) : Bool := asked == [] || asked == own

/-- What is in a frame beside the name: the header, the fields of a beacon and the elements before and after the SSID
element, with the elements as which they are written. -/
structure Surroundings where
  header : ManagementFrameHeader
  fields : BeaconLikeBody Unit
  before : List (ChainItem × RawElement)
  after : List (ChainItem × RawElement)

/-- No other SSID element; and HT control as in the frame control field (C21). -/
structure Surroundings.Fine [ScrollRule] (a : Surroundings) : Prop where
  ht : HtConsistent a.header
  items : ∀ p ∈ a.before ++ a.after, (∃ x, ItemOf p.1 p.2 x) ∧ p.2.tlv_type ≠ 0
  last : ∀ p, a.after.getLast? = some p → slack ≤ p.2.slice.length

variable [ScrollRule] [Crc32]

/-- The elements. -/
def Surroundings.chain (a : Surroundings) (i : ChainItem) : Chain :=
  chainAround (a.before.map Prod.fst) (a.after.map Prod.fst) i

/-- A probe request with a given item in the place of the SSID element. -/
def askWith (a : Surroundings) (i : ChainItem) (fcs : Bool) (buf : Bytes) : Res Bytes := do
  let (out, n) ← writeMgmtFrame .ProbeRequest a.header (writeProbeRequest ⟨(a.chain i).obj⟩) fcs buf
  pure (out.take n)

/-- A beacon, or a probe response. -/
def announceWith (response : Bool) (a : Surroundings) (i : ChainItem) (fcs : Bool) (buf : Bytes) : Res Bytes := do
  let (out, n) ← writeMgmtFrame (if response then .ProbeResponse else .Beacon) a.header (writeBeaconLike
    ⟨a.fields.timestamp, a.fields.beacon_interval, a.fields.capabilities_info, (a.chain i).obj⟩) fcs buf
  pure (out.take n)

/-- A station asks for a name. -/
def ask (a : Surroundings) (name : Str) (fcs : Bool) (buf : Bytes) : Res Bytes :=
  match SSIDLikeElement.new name with
  | none => .err .badInput
  | some e => askWith a (.typed (ssidElem e)) fcs buf

/-- An access point says its name. -/
def announce (response : Bool) (a : Surroundings) (name : Str) (fcs : Bool) (buf : Bytes) : Res Bytes :=
  match SSIDLikeElement.new name with
  | none => .err .badInput
  | some e => announceWith response a (.typed (ssidElem e)) fcs buf

/-- The access point's decision about a frame: does it answer? -/
def answers (own : Bytes) (fcs : Bool) (frame : Bytes) : Res Bool :=
  match matchFrames frame (if fcs then some true else none)
    [armOf MgmtKind.ProbeRequest.frame (readMgmtFrame readProbeRequest) fun r => r.2.elements] with
  | .panic => .panic
  | .err _ => .ok false
  | .ok (_, elements) => do
    match ← bodySsid elements with
    | some s => pure (asksFor own s.bytes)
    | none => pure false

/-- What the station learns from a frame: a network and its name, or nothing. -/
def heardName (fcs : Bool) (frame : Bytes) : Res (Option (Mac × Str)) :=
  match matchFrames frame (if fcs then some true else none)
    [armOf MgmtKind.Beacon.frame (readMgmtFrame readBeaconLike) fun r => (r.1.bssid, r.2.elements),
      armOf MgmtKind.ProbeResponse.frame (readMgmtFrame readBeaconLike) fun r => (r.1.bssid, r.2.elements)] with
  | .panic => .panic
  | .err _ => .ok none
  | .ok (_, bssid, elements) => do
    match ← bodySsid elements with
    | some s => pure (some (bssid, s))
    | none => pure none

/-- The list of networks after a scan. -/
def scan (fcs : Bool) : List Bytes → Res (List (Mac × Str))
  | [] => .ok []
  | f :: fs => do
    match ← heardName fcs f with
    | none => scan fcs fs
    | some x => do
      let l ← scan fcs fs
      pure (x :: l)

/-- What is on the air: an access point that says its name, or something else. -/
inductive OnAir where
  | network (response : Bool) (a : Surroundings) (name : Str)
  | other (frame : Bytes)

/-- The frames on the air. -/
def transmit (fcs : Bool) (buf : Bytes) : List OnAir → Res (List Bytes)
  | [] => .ok []
  | .network r a name :: l => do
    let f ← announce r a name fcs buf
    let fs ← transmit fcs buf l
    pure (f :: fs)
  | .other f :: l => do
    let fs ← transmit fcs buf l
    pure (f :: fs)

omit [ScrollRule] [Crc32] in
/-- The networks among what is on the air. -/
def networksOn : List OnAir → List (Mac × Str)
  | [] => []
  | .network _ a name :: l => (a.header.bssid, name) :: networksOn l
  | .other _ :: l => networksOn l

omit [Crc32] in
/-- Names of up to 32 bytes, not empty under the strict rule; and other frames are no beacons or probe responses, and have
four bytes where a check sequence is expected. -/
def OnAir.Fine (fcs : Bool) : OnAir → Prop
  | .network _ a name => a.Fine ∧ slack ≤ name.bytes.length ∧ name.bytes.length ≤ 32
  | .other f => ¬ IsKind .Beacon f ∧ ¬ IsKind .ProbeResponse f ∧ (fcs = true → 4 ≤ f.length)

end Spec

open Spec

variable [ScrollRule] [Crc32]

/-! ## Arms for management frames -/

omit [Crc32] in
private theorem arms_mgmt [Crc32] {α : Type} {β : MgmtKind → Type} (read : (k : MgmtKind) → Reader (β k))
    (hs : ∀ k, SafeReader (read k)) (block : (k : MgmtKind) → ManagementFrameHeader × β k → α) (g : GenericFrame) (hl : 10 ≤ g.bytes.length) (ks : List MgmtKind) (i : Nat) :
    let arms := ks.map fun k => armOf k.frame (readMgmtFrame (read k)) (block k)
    tryArms g i arms ≠ .panic ∧
    ((∀ k ∈ ks, ¬ IsKind k g.bytes) → ∃ e, tryArms g i arms = .err e) ∧
    ∀ j x, tryArms g i arms = .ok (j, x) → ∃ k ∈ ks, IsKind k g.bytes ∧ ∃ r n,
      readMgmtFrame (read k) false g.bytes = .ok (r, n) ∧ x = block k r := by
  have hsafe : ∀ k : MgmtKind, ∀ inp, (armOf k.frame (readMgmtFrame (read k)) (block k)).2 false inp ≠ .panic := by
    intro k inp h
    have hn := c23_safe (read k) (hs k) false inp (by simp)
    simp only [armOf] at h
    cases hr : readMgmtFrame (read k) false inp <;> simp_all [Res.map]
  induction ks generalizing i with
  | nil =>
    simp only [List.map_nil, tryArms]
    exact ⟨by simp, fun _ => ⟨_, rfl⟩, by simp⟩
  | cons k ks ih =>
    obtain ⟨ih1, ih2, ih3⟩ := ih (i + 1)
    simp only [List.map_cons]
    by_cases hk : IsKind k g.bytes
    · have hp := c25_parse_to_typed g hl k.frame (armOf k.frame (readMgmtFrame (read k)) (block k)).2 (hsafe k) true
        ((c25_mgmt k g.bytes hl).1.2 hk)
      have hu : tryArms g i (armOf k.frame (readMgmtFrame (read k)) (block k) ::
          ks.map fun k => armOf k.frame (readMgmtFrame (read k)) (block k)) =
          (readMgmtFrame (read k) false g.bytes).map fun r => (i, block k r.1) := by
        change tryArms g i ((k.frame, (armOf k.frame (readMgmtFrame (read k)) (block k)).2) :: _) = _
        simp only [tryArms, hp, if_true, Res.ok_bind]
        simp only [armOf]
        cases readMgmtFrame (read k) false g.bytes <;> rfl
      rw [hu]
      have hn := c23_safe (read k) (hs k) false g.bytes (by simp)
      cases hr : readMgmtFrame (read k) false g.bytes with
      | panic => exact absurd hr hn
      | err e => exact ⟨by simp [Res.map], fun h => absurd hk (h k (by simp)), by simp [Res.map]⟩
      | ok x =>
        refine ⟨by simp [Res.map], fun h => absurd hk (h k (by simp)), fun j y h => ?_⟩
        simp only [Res.map, Res.ok.injEq, Prod.mk.injEq] at h
        exact ⟨k, by simp, hk, x.1, x.2, hr, h.2.symm⟩
    · have hp := c25_parse_to_typed g hl k.frame (armOf k.frame (readMgmtFrame (read k)) (block k)).2 (hsafe k) false
        ((c25_mgmt k g.bytes hl).2.2 hk)
      have hu : tryArms g i (armOf k.frame (readMgmtFrame (read k)) (block k) ::
          ks.map fun k => armOf k.frame (readMgmtFrame (read k)) (block k)) =
          tryArms g (i + 1) (ks.map fun k => armOf k.frame (readMgmtFrame (read k)) (block k)) := by
        change tryArms g i ((k.frame, (armOf k.frame (readMgmtFrame (read k)) (block k)).2) :: _) = _
        simp only [tryArms, hp, Res.ok_bind, Bool.false_eq_true, if_false]
      rw [hu]
      refine ⟨ih1, fun h => ih2 fun k' hk' => h k' (by simp [hk']), fun j x h => ?_⟩
      obtain ⟨k', hk', h1, h2⟩ := ih3 j x h
      exact ⟨k', by simp [hk'], h1, h2⟩

omit [ScrollRule] in
/-- The kind of frames that are no action frames is in the first two bytes. -/
private theorem kind_inner (k : MgmtKind) (hk : kindNumber k ≠ 13) (fcs : Bool) (f : Bytes) (h : IsKind k f) :
    IsKind k (withFcs fcs f) := by
  obtain ⟨b0, b1, rest, rfl, h1, h2, h3⟩ := h
  cases fcs
  · exact ⟨b0, b1, rest, rfl, h1, h2, fun h => absurd h hk⟩
  · exact ⟨b0, b1, _, rfl, h1, h2, fun h => absurd h hk⟩

/-- What `match_frames!` makes of any bytes if all arms are for management frames. -/
theorem match_mgmt_each {α : Type} {β : MgmtKind → Type} (read : (k : MgmtKind) → Reader (β k))
    (hs : ∀ k, SafeReader (read k)) (block : (k : MgmtKind) → ManagementFrameHeader × β k → α) (ks : List MgmtKind) (hks : ∀ k ∈ ks, kindNumber k ≠ 13) (fcs : Bool) (bytes : Bytes) :
    let r := matchFrames bytes (if fcs then some true else none)
      (ks.map fun k => armOf k.frame (readMgmtFrame (read k)) (block k))
    (r = .panic ↔ fcs = true ∧ bytes.length < 4) ∧
    ((∀ k ∈ ks, ¬ IsKind k bytes) → (fcs = true → 4 ≤ bytes.length) → ∃ e, r = .err e) ∧
    ∀ j x, r = .ok (j, x) → ∃ frame, bytes = withFcs fcs frame ∧ ∃ k ∈ ks, IsKind k frame ∧ ∃ h n,
      readMgmtFrame (read k) false frame = .ok (h, n) ∧ x = block k h := by
  have he : (if fcs then some true else none : Option Bool).isSome = fcs := by cases fcs <;> rfl
  intro r
  have hr : r = (GenericFrame.new bytes fcs >>= fun g => tryArms g 0
      (ks.map fun k => armOf k.frame (readMgmtFrame (read k)) (block k))) := by
    simp only [r, matchFrames, he]
  rw [← c24_new_panics_iff, hr]
  cases hg : GenericFrame.new bytes fcs with
  | panic =>
    refine ⟨by simp, fun _ h => ?_, by simp⟩
    obtain ⟨h1, h2⟩ := (c24_new_panics_iff bytes fcs).1 hg
    have := h h1
    omega
  | err e => exact ⟨by simp, fun _ _ => ⟨e, rfl⟩, by simp⟩
  | ok g =>
    obtain ⟨hb, hl⟩ := (c24_new bytes fcs g).1 hg
    obtain ⟨h1, h2, h3⟩ := arms_mgmt read hs block g hl ks 0
    simp only [Res.ok_bind, reduceCtorEq, iff_false]
    refine ⟨h1, fun h _ => h2 fun k hk hi => h k hk ?_, fun j x hx => ?_⟩
    · rw [hb]
      exact kind_inner k (hks k hk) fcs _ hi
    · obtain ⟨k, hk, hi, h, n, hh, hx⟩ := h3 j x hx
      exact ⟨g.bytes, hb, k, hk, hi, h, n, hh, hx⟩

/-- The same if all have the same kind of body. -/
theorem match_mgmt {α β : Type} (read : Reader β) (hs : SafeReader read) (block : ManagementFrameHeader × β → α)
    (ks : List MgmtKind) (hks : ∀ k ∈ ks, kindNumber k ≠ 13) (fcs : Bool) (bytes : Bytes) :
    let r := matchFrames bytes (if fcs then some true else none)
      (ks.map fun k => armOf k.frame (readMgmtFrame read) block)
    (r = .panic ↔ fcs = true ∧ bytes.length < 4) ∧
    ((∀ k ∈ ks, ¬ IsKind k bytes) → (fcs = true → 4 ≤ bytes.length) → ∃ e, r = .err e) ∧
    ∀ j x, r = .ok (j, x) → ∃ frame, bytes = withFcs fcs frame ∧ ∃ k ∈ ks, IsKind k frame ∧ ∃ h n,
      readMgmtFrame read false frame = .ok (h, n) ∧ x = block h :=
  match_mgmt_each (fun _ => read) (fun _ => hs) (fun _ => block) ks hks fcs bytes

/-! ## Frames with a name arrive -/

omit [Crc32] in
private theorem last_of (a : Surroundings) (ha : a.Fine) (r : RawElement)
    (hr : a.after = [] → slack ≤ r.slice.length) :
    ∀ q, (a.before.map Prod.snd ++ r :: a.after.map Prod.snd).getLast? = some q → slack ≤ q.slice.length := by
  intro q hq
  rw [List.getLast?_append, List.getLast?_cons] at hq
  cases hg : (a.after.map Prod.snd).getLast? with
  | none =>
    rw [hg] at hq
    simp at hq
    subst hq
    exact hr (by simpa using List.getLast?_eq_none_iff.1 hg)
  | some r' =>
    rw [hg] at hq
    simp at hq
    subst hq
    rw [List.getLast?_map] at hg
    obtain ⟨p, hp, rfl⟩ := Option.map_eq_some_iff.1 hg
    exact ha.last p hp

/-- The elements of a request arrive. -/
private theorem ask_arrives (a : Surroundings) (ha : a.Fine) (i : ChainItem) (r : RawElement) (x : Nat)
    (hi : ItemOf i r x) (hr : a.after = [] → slack ≤ r.slice.length) (fcs : Bool) :
    ∃ size, ∀ buf : Bytes, size ≤ buf.length → ∃ frame els, askWith a i fcs buf = .ok frame ∧
      matchFrames frame (if fcs then some true else none)
        [armOf MgmtKind.ProbeRequest.frame (readMgmtFrame readProbeRequest) fun r => r.2.elements] = .ok (0, els) ∧
      ElementsOf els (a.before.map Prod.snd ++ r :: a.after.map Prod.snd) := by
  obtain ⟨y, hch⟩ := chainAround_of a.before a.after (fun p hp => (ha.items p hp).1) i r x hi
  obtain ⟨size, hA⟩ := c65_bodies_partial.2.2.1 a.header ha.ht ⟨(a.chain i).obj⟩ _ _ y rfl hch (last_of a ha r hr) trivial fcs
    Bytes (fun r => r.2.elements) [] [] (by simp)
  refine ⟨size, fun buf hb => ?_⟩
  obtain ⟨out, n, els, h1, h2, h3⟩ := hA buf hb
  refine ⟨out.take n, els, ?_, h2, h3⟩
  simp only [askWith]
  erw [h1]
  rfl

/-- The elements of a beacon or probe response arrive. -/
theorem announce_arrives (resp : Bool) (a : Surroundings) (ha : a.Fine) (i : ChainItem) (r : RawElement) (x : Nat)
    (hi : ItemOf i r x) (hr : a.after = [] → slack ≤ r.slice.length) (fcs : Bool) :
    ∃ size, ∀ buf : Bytes, size ≤ buf.length → ∃ frame els, announceWith resp a i fcs buf = .ok frame ∧
      (∃ j, matchFrames frame (if fcs then some true else none)
        [armOf MgmtKind.Beacon.frame (readMgmtFrame readBeaconLike) fun r => (r.1.bssid, r.2.elements),
          armOf MgmtKind.ProbeResponse.frame (readMgmtFrame readBeaconLike) fun r => (r.1.bssid, r.2.elements)] =
        .ok (j, a.header.bssid, els)) ∧
      ElementsOf els (a.before.map Prod.snd ++ r :: a.after.map Prod.snd) := by
  obtain ⟨y, hch⟩ := chainAround_of a.before a.after (fun p hp => (ha.items p hp).1) i r x hi
  cases resp
  · obtain ⟨size, hA⟩ := c65_bodies_partial.2.2.2.2.1 a.header ha.ht
      ⟨a.fields.timestamp, a.fields.beacon_interval, a.fields.capabilities_info, (a.chain i).obj⟩ _ _ y rfl hch
      (last_of a ha r hr) trivial fcs (Mac × Bytes) (fun r => (r.1.bssid, r.2.elements)) []
      [armOf MgmtKind.ProbeResponse.frame (readMgmtFrame readBeaconLike) fun r => (r.1.bssid, r.2.elements)] (by simp)
    refine ⟨size, fun buf hb => ?_⟩
    obtain ⟨out, n, els, h1, h2, h3⟩ := hA buf hb
    refine ⟨out.take n, els, ?_, ⟨_, h2⟩, h3⟩
    simp only [announceWith]
    erw [h1]
    rfl
  · obtain ⟨size, hA⟩ := c65_bodies_partial.2.2.2.1 a.header ha.ht
      ⟨a.fields.timestamp, a.fields.beacon_interval, a.fields.capabilities_info, (a.chain i).obj⟩ _ _ y rfl hch
      (last_of a ha r hr) trivial fcs (Mac × Bytes) (fun r => (r.1.bssid, r.2.elements))
      [armOf MgmtKind.Beacon.frame (readMgmtFrame readBeaconLike) fun r => (r.1.bssid, r.2.elements)] [] (by
        intro b hb
        obtain rfl := List.mem_singleton.1 hb
        exact .inr (.inr ⟨.Beacon, .inl (by decide), rfl⟩))
    refine ⟨size, fun buf hb => ?_⟩
    obtain ⟨out, n, els, h1, h2, h3⟩ := hA buf hb
    refine ⟨out.take n, els, ?_, ⟨_, h2⟩, h3⟩
    simp only [announceWith]
    erw [h1]
    rfl

omit [Crc32] in
theorem announced_item (name : Str) (e : SSIDLikeElement) (h : SSIDLikeElement.new name = some e) :
    ∃ x, ItemOf (.typed (ssidElem e)) ⟨0, name.bytes⟩ x := by
  obtain ⟨hw, hm⟩ := c10_write e
  obtain ⟨hl, rfl⟩ := (c10_new name e).1 h
  have := ItemOf.typed (ssidElem e) e.ssid.bytes _ hw (by omega) hm (by simp [ssidElem, rawOf]; omega)
  exact ⟨_, this⟩

omit [Crc32] in
private theorem pre_none (a : Surroundings) (ha : a.Fine) : ∀ r ∈ a.before.map Prod.snd, r.tlv_type ≠ 0 := by
  intro r hr
  obtain ⟨p, hp, rfl⟩ := List.mem_map.1 hr
  exact (ha.items p (by simp [hp])).2

omit [Crc32] in
private theorem post_none (a : Surroundings) (ha : a.Fine) : ∀ r ∈ a.after.map Prod.snd, r.tlv_type ≠ 0 := by
  intro r hr
  obtain ⟨p, hp, rfl⟩ := List.mem_map.1 hr
  exact (ha.items p (by simp [hp])).2

omit [Crc32] in
theorem announced_ssid (a : Surroundings) (ha : a.Fine) (name : Str) (hne : slack ≤ name.bytes.length)
    (hl : name.bytes.length ≤ 32) (els : Bytes)
    (h : ElementsOf els (a.before.map Prod.snd ++ ⟨0, name.bytes⟩ :: a.after.map Prod.snd)) :
    bodySsid els = .ok (some name) :=
  (c57_ssid_some h name).2 ⟨_, _, rfl, ⟨hne, hl, (utf8Valid_iff _).1 name.valid⟩,
    fun r hr h0 => absurd h0 (pre_none a ha r hr)⟩

omit [Crc32] in
theorem announced_no_ssid (a : Surroundings) (ha : a.Fine) (p : Bytes) (hp : ¬ SsidBytes p) (els : Bytes)
    (h : ElementsOf els (a.before.map Prod.snd ++ ⟨0, p⟩ :: a.after.map Prod.snd)) : bodySsid els = .ok none := by
  refine (c57_ssid_none h).2 fun r hr h0 => ?_
  rcases List.mem_append.1 hr with hr | hr
  · exact absurd h0 (pre_none a ha r hr)
  · rcases List.mem_cons.1 hr with rfl | hr
    · exact hp
    · exact absurd h0 (post_none a ha r hr)

/-! ## The property -/

/-- An access point answers a request exactly if it is asked for.  Partial: HT control must agree with the order bit and
names are UTF-8; under the strict rule of `scroll` neither the name nor the last element may be empty, see
`c95_wildcard_lost`. -/
theorem c95_answers_partial (a : Surroundings) (ha : a.Fine) (name : Str) (hne : slack ≤ name.bytes.length)
    (hl : name.bytes.length ≤ 32) (own : Bytes) (fcs : Bool) :
    ∃ size, ∀ buf : Bytes, size ≤ buf.length → ∃ frame, ask a name fcs buf = .ok frame ∧
      answers own fcs frame = .ok (asksFor own name.bytes) := by
  have hn : SSIDLikeElement.new name = some ⟨name⟩ := (c10_new _ _).2 ⟨hl, rfl⟩
  obtain ⟨x, hx⟩ := announced_item name _ hn
  obtain ⟨size, hA⟩ := ask_arrives a ha _ _ x hx (fun _ => hne) fcs
  refine ⟨size, fun buf hb => ?_⟩
  obtain ⟨frame, els, h1, h2, h3⟩ := hA buf hb
  refine ⟨frame, by rw [ask, hn]; exact h1, ?_⟩
  simp only [answers, h2, announced_ssid a ha name hne hl els h3, Res.ok_bind]
  rfl

/-- A station learns network and name from a beacon or an answer.  Partial as before. -/
theorem c95_heard_partial (resp : Bool) (a : Surroundings) (ha : a.Fine) (name : Str) (hne : slack ≤ name.bytes.length)
    (hl : name.bytes.length ≤ 32) (fcs : Bool) :
    ∃ size, ∀ buf : Bytes, size ≤ buf.length → ∃ frame, announce resp a name fcs buf = .ok frame ∧
      heardName fcs frame = .ok (some (a.header.bssid, name)) := by
  have hn : SSIDLikeElement.new name = some ⟨name⟩ := (c10_new _ _).2 ⟨hl, rfl⟩
  obtain ⟨x, hx⟩ := announced_item name _ hn
  obtain ⟨size, hA⟩ := announce_arrives resp a ha _ _ x hx (fun _ => hne) fcs
  refine ⟨size, fun buf hb => ?_⟩
  obtain ⟨frame, els, h1, ⟨j, h2⟩, h3⟩ := hA buf hb
  refine ⟨frame, by rw [announce, hn]; exact h1, ?_⟩
  simp only [heardName, h2, announced_ssid a ha name hne hl els h3, Res.ok_bind]
  rfl

/-- Whatever is received, a station takes a name only from beacons and probe responses: the network is the third address,
and the name is the content of the first element 0 that is up to 32 bytes of UTF-8. -/
theorem c95_heard_only (fcs : Bool) (frame : Bytes) (bssid : Mac) (name : Str)
    (h : heardName fcs frame = .ok (some (bssid, name))) :
    ∃ (h : ManagementFrameHeader) (b0 : Byte) (fixed els : Bytes) (raws : List RawElement),
      frame = withFcs fcs (b0 :: h.fcf_flags.bits :: (mgmtHeaderWire h ++ (fixed ++ els))) ∧
      (b0.toNat / 4 % 4, b0.toNat / 16) ∈ [(0, 8), (0, 5)] ∧ HtConsistent h ∧ h.bssid = bssid ∧ fixed.length = 12 ∧
      ElementsOf els raws ∧ ∃ pre post, raws = pre ++ ⟨0, name.bytes⟩ :: post ∧ SsidBytes name.bytes ∧
        ∀ r ∈ pre, r.tlv_type = 0 → ¬ SsidBytes r.slice := by
  have hm := (match_mgmt readBeaconLike readBeaconLike_safe (fun r => (r.1.bssid, r.2.elements)) [.Beacon, .ProbeResponse]
    (by decide) fcs frame).2.2
  simp only [List.map_cons, List.map_nil] at hm
  unfold heardName at h
  split at h
  · cases h
  · cases h
  · rename_i j bs els hr
    obtain ⟨inner, hin, k, hk, hkind, ⟨hd, body⟩, n, hread, hx⟩ := hm _ _ hr
    simp only [Prod.mk.injEq] at hx
    obtain ⟨rfl, rfl⟩ := hx
    have hbr : Bounded readBeaconLike := by
      intro inp b k h
      obtain ⟨_, _, _, _, h, _⟩ := c22_beacon.parse inp b k h
      omega
    obtain ⟨b0, rest, m, h1, h2, h3, h4, -⟩ := c23_parse _ hbr false inner hd body n hread
    obtain ⟨fx, h5, h6, -⟩ := c22_beacon.parse _ _ _ h4
    obtain ⟨raws, hraws⟩ := elementsOf_exists body.elements
    cases hs : bodySsid body.elements with
    | panic => rw [hs] at h; cases h
    | err e => rw [hs] at h; cases h
    | ok o =>
      rw [hs] at h
      cases o with
      | none => cases h
      | some s =>
        simp only [Res.ok_bind, pure, Res.ok.injEq, Option.some.injEq, Prod.mk.injEq] at h
        obtain ⟨rfl, rfl⟩ := h
        refine ⟨hd, b0, fx, body.elements, raws, ?_, ?_, h3, rfl, h6, hraws, (c57_ssid_some hraws s).1 hs⟩
        · rw [hin, h1, h5]
          rfl
        · obtain ⟨c0, c1, r', hc, hk1, hk2, -⟩ := hkind
          rw [h1] at hc
          simp only [withFcs, Bool.false_eq_true, if_false, List.cons.injEq] at hc
          obtain ⟨rfl, -⟩ := hc
          rw [hk1, hk2]
          simp only [List.mem_cons, List.not_mem_nil, or_false] at hk
          rcases hk with rfl | rfl <;> simp [kindNumber]

/-- Nothing panics, unless a check sequence is expected in fewer than four bytes. -/
theorem c95_panics_iff (own : Bytes) (fcs : Bool) (frame : Bytes) :
    (answers own fcs frame = .panic ↔ fcs = true ∧ frame.length < 4) ∧
    (heardName fcs frame = .panic ↔ fcs = true ∧ frame.length < 4) := by
  constructor
  · rw [← (match_mgmt readProbeRequest readProbeRequest_safe (fun r => r.2.elements) [.ProbeRequest] (by decide) fcs frame).1]
    simp only [List.map_cons, List.map_nil]
    unfold answers
    split
    · rename_i hr
      simp [hr]
    · rename_i hr
      simp [hr]
    · rename_i hr
      obtain ⟨o, ho⟩ := c57_ssid_total (by assumption)
      rw [hr, ho]
      cases o <;> simp [pure]
  · rw [← (match_mgmt readBeaconLike readBeaconLike_safe (fun r => (r.1.bssid, r.2.elements)) [.Beacon, .ProbeResponse]
      (by decide) fcs frame).1]
    simp only [List.map_cons, List.map_nil]
    unfold heardName
    split
    · rename_i hr
      simp [hr]
    · rename_i hr
      simp [hr]
    · rename_i els hr
      obtain ⟨o, ho⟩ := c57_ssid_total els
      rw [hr, ho]
      cases o <;> simp [pure]

/-- Other frames say nothing. -/
private theorem heard_other (fcs : Bool) (f : Bytes) (h : (OnAir.other f).Fine fcs) : heardName fcs f = .ok none := by
  obtain ⟨h1, h2, h3⟩ := h
  obtain ⟨e, he⟩ := (match_mgmt readBeaconLike readBeaconLike_safe (fun r => (r.1.bssid, r.2.elements))
    [.Beacon, .ProbeResponse] (by decide) fcs f).2.1 (by
      intro k hk
      simp only [List.mem_cons, List.not_mem_nil, or_false] at hk
      rcases hk with rfl | rfl
      · exact h1
      · exact h2) h3
  simp only [List.map_cons, List.map_nil] at he
  simp only [heardName, he]

/-- A scan finds exactly the networks on the air, in order, whatever else there is.  Partial as before. -/
theorem c95_scan_partial (fcs : Bool) (l : List OnAir) (hl : ∀ x ∈ l, x.Fine fcs) :
    ∃ size, ∀ buf : Bytes, size ≤ buf.length → ∃ frames, transmit fcs buf l = .ok frames ∧
      scan fcs frames = .ok (networksOn l) := by
  induction l with
  | nil => exact ⟨0, fun _ _ => ⟨[], rfl, rfl⟩⟩
  | cons x l ih =>
    obtain ⟨size, ih⟩ := ih fun y hy => hl y (by simp [hy])
    cases x with
    | other f =>
      have hf := heard_other fcs f (hl (.other f) (by simp))
      refine ⟨size, fun buf hb => ?_⟩
      obtain ⟨frames, h1, h2⟩ := ih buf hb
      refine ⟨f :: frames, by simp only [transmit, h1, Res.ok_bind]; rfl, ?_⟩
      simp only [scan, hf, Res.ok_bind, h2, networksOn]
    | network r a name =>
      obtain ⟨ha, hne, hle⟩ := hl (.network r a name) (by simp)
      obtain ⟨size', hA⟩ := c95_heard_partial r a ha name hne hle fcs
      refine ⟨max size size', fun buf hb => ?_⟩
      obtain ⟨frames, h1, h2⟩ := ih buf (by omega)
      obtain ⟨f, h3, h4⟩ := hA buf (by omega)
      refine ⟨f :: frames, by simp only [transmit, h1, h3, Res.ok_bind]; rfl, ?_⟩
      simp only [scan, h4, Res.ok_bind, h2, networksOn]
      rfl

/-! ## Where it fails -/

/-- Violation: under the strict rule of `scroll` the wildcard is not understood.  A request for any network is written, but
no access point answers it, though all are asked. -/
theorem c95_wildcard_lost (hs : slack = 1) (a : Surroundings) (ha : a.Fine) (hne : a.after ≠ []) (own : Bytes) (fcs : Bool) :
    asksFor own [] = true ∧
    ∃ size, ∀ buf : Bytes, size ≤ buf.length → ∃ frame, ask a ⟨[], rfl⟩ fcs buf = .ok frame ∧
      answers own fcs frame = .ok false := by
  refine ⟨rfl, ?_⟩
  have hn : SSIDLikeElement.new ⟨[], rfl⟩ = some ⟨⟨[], rfl⟩⟩ := rfl
  obtain ⟨x, hx⟩ := announced_item ⟨[], rfl⟩ _ hn
  obtain ⟨size, hA⟩ := ask_arrives a ha _ _ x hx (fun h => absurd h hne) fcs
  refine ⟨size, fun buf hb => ?_⟩
  obtain ⟨frame, els, h1, h2, h3⟩ := hA buf hb
  refine ⟨frame, by rw [ask, hn]; exact h1, ?_⟩
  simp only [answers, h2, announced_no_ssid a ha [] (fun h => by have := h.1; simp at this; omega) els h3, Res.ok_bind]
  rfl

/-- Violation: names that are not UTF-8 are lost, though a name may have any octets (9.4.2.2).  A network with such a name is
not found, and it does not answer when it is asked for. -/
theorem c95_octets_lost (p : Bytes) (hp : IsNetworkName p) (hu : ¬ IsUtf8 p) (a : Surroundings) (ha : a.Fine) (resp fcs : Bool) :
    ∃ size, ∀ buf : Bytes, size ≤ buf.length →
      (∃ frame, announceWith resp a (.raw ⟨0, p⟩) fcs buf = .ok frame ∧ heardName fcs frame = .ok none) ∧
      ∃ frame, askWith a (.raw ⟨0, p⟩) fcs buf = .ok frame ∧ asksFor p p = true ∧ answers p fcs frame = .ok false := by
  have hsl := slack_le
  have hne : p ≠ [] := by
    rintro rfl
    exact hu ((utf8Valid_iff []).1 rfl)
  have hpos : 0 < p.length := List.length_pos_iff.2 hne
  rw [IsNetworkName] at hp
  have hi := ItemOf.raw ⟨0, p⟩ (by show p.length ≤ 255; omega)
  obtain ⟨s1, h1⟩ := announce_arrives resp a ha _ _ _ hi (fun _ => by show slack ≤ p.length; omega) fcs
  obtain ⟨s2, h2⟩ := ask_arrives a ha _ _ _ hi (fun _ => by show slack ≤ p.length; omega) fcs
  have hno : ¬ SsidBytes p := fun h => hu h.2.2
  refine ⟨max s1 s2, fun buf hb => ⟨?_, ?_⟩⟩
  · obtain ⟨frame, els, g1, ⟨j, g2⟩, g3⟩ := h1 buf (by omega)
    refine ⟨frame, g1, ?_⟩
    simp only [heardName, g2, announced_no_ssid a ha p hno els g3, Res.ok_bind]
    rfl
  · obtain ⟨frame, els, g1, g2, g3⟩ := h2 buf (by omega)
    refine ⟨frame, g1, by simp [asksFor], ?_⟩
    simp only [answers, g2, announced_no_ssid a ha p hno els g3, Res.ok_bind]
    rfl

omit [ScrollRule] [Crc32] in
/-- Violation: a network with a name that is not UTF-8 can be taken for another one.  If a second SSID element follows, its
name is reported instead of the first; and an access point answers a request that is not for it. -/
theorem c95_second_wrong (s : Bool) :
    letI : ScrollRule := ⟨s⟩
    letI : Crc32 := ⟨fun _ => 0⟩
    let a : Surroundings := ⟨⟨⟨0⟩, 0, Arr.zero 6, Arr.zero 6, ⟨[2, 0, 0, 0, 0, 1], rfl⟩, ⟨0⟩, none⟩, ⟨0, 100, ⟨1⟩, ()⟩, [],
      [(.raw ⟨0, [0x61]⟩, ⟨0, [0x61]⟩)]⟩
    asksFor [0x61] [0xe9] = false ∧
    (do let f ← announceWith false a (.raw ⟨0, [0xe9]⟩) false (List.replicate 60 7); heardName false f) =
      .ok (some (⟨[2, 0, 0, 0, 0, 1], rfl⟩, ⟨[0x61], rfl⟩)) ∧
    (do let f ← askWith a (.raw ⟨0, [0xe9]⟩) false (List.replicate 60 7); answers [0x61] false f) = .ok true := by
  cases s <;> exact ⟨by decide, by decide +kernel, by decide +kernel⟩

/-! ## Concrete cases -/

omit [Crc32] in
private theorem fine_example (b : Mac) :
    (⟨⟨⟨0⟩, 0, Arr.zero 6, Arr.zero 6, b, ⟨0⟩, none⟩, ⟨0, 100, ⟨1⟩, ()⟩, [], [(.raw ⟨1, [0x82]⟩, ⟨1, [0x82]⟩)]⟩ :
      Surroundings).Fine := by
  have hs := slack_le
  refine ⟨(show none.isSome = (FCFFlags.mk 0).order by decide), ?_, ?_⟩
  · intro p hp
    simp only [List.nil_append, List.mem_singleton] at hp
    subst hp
    exact ⟨⟨_, .raw _ (by decide)⟩, by decide⟩
  · intro p hp
    simp only [List.getLast?_singleton, Option.some.injEq] at hp
    subst hp
    exact hs

/-- Two networks and a data frame are on the air; the scan finds the two. -/
example (fcs : Bool) (hs : slack = 0) : ∃ size, ∀ buf : Bytes, size ≤ buf.length → ∃ frames,
    transmit fcs buf
      [.network false ⟨⟨⟨0⟩, 0, Arr.zero 6, Arr.zero 6, ⟨[2, 0, 0, 0, 0, 1], rfl⟩, ⟨0⟩, none⟩, ⟨0, 100, ⟨1⟩, ()⟩, [],
          [(.raw ⟨1, [0x82]⟩, ⟨1, [0x82]⟩)]⟩ ⟨[0x61, 0x62], rfl⟩,
        .other [8, 0, 1, 2, 3, 4],
        .network true ⟨⟨⟨0⟩, 0, Arr.zero 6, Arr.zero 6, ⟨[2, 0, 0, 0, 0, 2], rfl⟩, ⟨0⟩, none⟩, ⟨0, 100, ⟨1⟩, ()⟩, [],
          [(.raw ⟨1, [0x82]⟩, ⟨1, [0x82]⟩)]⟩ ⟨[], rfl⟩] = .ok frames ∧
    scan fcs frames = .ok [(⟨[2, 0, 0, 0, 0, 1], rfl⟩, ⟨[0x61, 0x62], rfl⟩), (⟨[2, 0, 0, 0, 0, 2], rfl⟩, ⟨[], rfl⟩)] :=
  c95_scan_partial fcs _ (by
    intro x hx
    simp only [List.mem_cons, List.not_mem_nil, or_false] at hx
    rcases hx with rfl | rfl | rfl
    · exact ⟨fine_example _, by have := slack_le; simp; omega, by decide⟩
    · refine ⟨?_, ?_, by simp⟩
      all_goals
        rintro ⟨b0, b1, r, h, h1, -⟩
        cases h
        exact absurd h1 (by decide)
    · exact ⟨fine_example _, by simp [hs], by decide⟩)

omit [ScrollRule] [Crc32] in
/-- Requests for "ab" and for any network, and one for "ac", to the access point "ab". -/
example :
    letI : ScrollRule := ⟨false⟩
    letI : Crc32 := ⟨fun _ => 0⟩
    let a : Surroundings := ⟨⟨⟨0⟩, 0, Arr.zero 6, Arr.zero 6, Arr.zero 6, ⟨0⟩, none⟩, ⟨0, 100, ⟨1⟩, ()⟩, [],
      [(.raw ⟨1, [0x82]⟩, ⟨1, [0x82]⟩)]⟩
    (do let f ← ask a ⟨[0x61, 0x62], rfl⟩ true (List.replicate 60 7); answers [0x61, 0x62] true f) = .ok true ∧
    (do let f ← ask a ⟨[], rfl⟩ true (List.replicate 60 7); answers [0x61, 0x62] true f) = .ok true ∧
    (do let f ← ask a ⟨[0x61, 0x63], rfl⟩ true (List.replicate 60 7); answers [0x61, 0x62] true f) = .ok false := by
  decide +kernel

omit [ScrollRule] [Crc32] in
/-- A name for `c95_octets_lost`: "é" in Latin-1. -/
example : IsNetworkName [0xe9] ∧ ¬ IsUtf8 [0xe9] :=
  ⟨by simp [IsNetworkName], fun h => absurd ((utf8Valid_iff _).2 h) (by decide)⟩

end Verif
