import Verif.Props.C106
/-!
# C109: a station goes where there is room

Access points say in the BSS load element (9.4.2.27) how many stations they have, how busy the channel is and how much admission
capacity is left.  A station keeps the latest word of each access point and goes to one with enough capacity: that with the
least busy channel, and of these one with the fewest stations.  The program is not in the crate; it is written here with the
functions of the crate.
-/
namespace Verif

namespace Spec

/-- What an access point says about its load. -/
structure ApLoad where
  stations : Nat
  busy : Nat
  capacity : Nat
  deriving DecidableEq, Repr

/-- 9.4.2.27 in octets: two for the stations, one for the channel, two for the capacity, low octets first. -/
def loadIn (raws : List RawElement) : Option ApLoad :=
  (saidIn 11 5 raws).map fun p => ⟨octetAt p 0 + 256 * octetAt p 1, octetAt p 2, octetAt p 3 + 256 * octetAt p 4⟩

/-- What access points say, in order of time; some say nothing about their load. -/
def wordsOn : List OnAir → List (Mac × Option ApLoad)
  | [] => []
  | .network _ a name :: l => (a.header.bssid, loadIn (a.elements name)) :: wordsOn l
  | .other _ :: l => wordsOn l

/-- The latest word of an access point. -/
def Latest (l : List (Mac × Option ApLoad)) (who : Mac) (x : Option ApLoad) : Prop :=
  ∃ pre post, l = pre ++ (who, x) :: post ∧ ∀ y ∈ post, y.1 ≠ who

/-- A less busy channel, or an equally busy one with fewer stations. -/
def Emptier (x y : ApLoad) : Prop := x.busy < y.busy ∨ x.busy = y.busy ∧ x.stations < y.stations

/-- An access point with enough capacity than which none with enough capacity is emptier; none only if none has enough. -/
def BestRoom (l : List (Mac × Option ApLoad)) (need : Nat) : Option Mac → Prop
  | none => ∀ who x, Latest l who (some x) → x.capacity < need
  | some who => ∃ x, Latest l who (some x) ∧ need ≤ x.capacity ∧
    ∀ other y, Latest l other (some y) → need ≤ y.capacity → ¬ Emptier y x

/-! ## The station, with the functions of the crate -/

/-- What the station remembers. -/
abbrev LoadMemory := List (Mac × Option BSSLoadElement)

/-- A new word takes the place of an older one. -/
def LoadMemory.note (m : LoadMemory) (who : Mac) (x : Option BSSLoadElement) : LoadMemory :=
  (who, x) :: m.filter fun p => p.1 != who

/-- The choice. -/
def LoadMemory.choose (need : Nat) : LoadMemory → Option (Mac × BSSLoadElement)
  | [] => none
  | (_, none) :: m => choose need m
  | (who, some x) :: m =>
    if x.available_admission_capacity.toNat < need then choose need m
    else match choose need m with
      | none => some (who, x)
      | some (other, y) =>
        if y.channel_utilization < x.channel_utilization ||
          (y.channel_utilization == x.channel_utilization && decide (y.station_count < x.station_count)) then
          some (other, y) else some (who, x)

variable [ScrollRule] [Crc32]

/-- One frame: who says what. -/
def loadHeard (fcs : Bool) (frame : Bytes) : Res (Option (Mac × Option BSSLoadElement)) :=
  match matchFrames frame (if fcs then some true else none)
    [armOf MgmtKind.Beacon.frame (readMgmtFrame readBeaconLike) fun r => (r.1.bssid, r.2.elements),
      armOf MgmtKind.ProbeResponse.frame (readMgmtFrame readBeaconLike) fun r => (r.1.bssid, r.2.elements)] with
  | .panic => .panic
  | .err _ => .ok none
  | .ok (_, who, els) => do
    let x ← getFirstElement els bssLoadKind
    pure (some (who, x))

/-- All frames. -/
def listenLoads (fcs : Bool) : List Bytes → LoadMemory → Res LoadMemory
  | [], m => .ok m
  | f :: fs, m => do
    match ← loadHeard fcs f with
    | none => listenLoads fcs fs m
    | some (who, x) => listenLoads fcs fs (m.note who x)

/-- Where the station goes. -/
def goWhere (fcs : Bool) (need : Nat) (frames : List Bytes) : Res (Option Mac) := do
  let m ← listenLoads fcs frames []
  pure ((m.choose need).map Prod.fst)

/-- An element of the crate as what it says. -/
def ApLoad.of (e : BSSLoadElement) : ApLoad :=
  ⟨e.station_count.toNat, e.channel_utilization.toNat, e.available_admission_capacity.toNat⟩

end Spec

open Spec

variable [ScrollRule]

/-! ## Elements -/

private theorem load_safe (p : Bytes) : readBSSLoad p ≠ .panic := by
  intro h
  by_cases hp : p.length < 5
  · obtain ⟨e, he⟩ := c12_bss_load.short p hp
    rw [he] at h; cases h
  · obtain ⟨a, r, hv, rfl⟩ := c12_bss_load.onto p (by omega)
    rw [c12_bss_load.read a r hv] at h; cases h

omit [ScrollRule] in
private theorem two_octets (x : BitVec 16) : ∃ a b, toLE x = [a, b] ∧ fromLE 16 [a, b] = x := by
  have h := toLE_length x
  match hx : toLE x with
  | [a, b] => exact ⟨a, b, rfl, by rw [← hx, fromLE_toLE (by decide)]⟩
  | [] | [_] | _ :: _ :: _ :: _ => rw [hx] at h; simp at h

omit [ScrollRule] in
private theorem number_of (a b : Byte) : (fromLE 16 [a, b]).toNat = a.toNat + 256 * b.toNat := by
  have := a.isLt
  have := b.isLt
  simp [fromLE, leNat]
  omega

private theorem load_parsed (p : Bytes) : parsed bssLoadKind p =
    if 5 ≤ p.length then
      some ⟨fromLE 16 [p.getD 0 0, p.getD 1 0], p.getD 2 0, fromLE 16 [p.getD 3 0, p.getD 4 0]⟩ else none := by
  have hsl := slack_le
  by_cases hp : 5 ≤ p.length
  · obtain ⟨a, r, hv, rfl⟩ := c12_bss_load.onto p hp
    rw [if_pos hp, parsed, if_neg (by omega)]
    simp only [bssLoadKind, c12_bss_load.read a r hv]
    obtain ⟨a1, a2, a3⟩ := a
    obtain ⟨x1, y1, e1, f1⟩ := two_octets a1
    obtain ⟨x3, y3, e3, f3⟩ := two_octets a3
    simp [e1, e3, f1, f3]
  · rw [if_neg hp, parsed]
    obtain ⟨e, he⟩ := c12_bss_load.short p (by omega)
    simp only [bssLoadKind, he, ite_self]

/-- The crate finds in all elements exactly what the standard says. -/
theorem c109_exact (els : Bytes) (raws : List RawElement) (h : ElementsOf els raws) :
    ∃ o, getFirstElement els bssLoadKind = .ok o ∧ o.map ApLoad.of = loadIn raws := by
  have h1 := getFirst_said h 11 bssLoadKind rfl load_safe 5 _ load_parsed
  simp only [BitVec.reduceToNat] at h1
  refine ⟨_, h1, ?_⟩
  rw [Option.map_map, loadIn]
  congr 1
  funext p
  simp only [Function.comp, ApLoad.of, number_of, octetAt]

/-! ## Memory -/

/-- What the memory is about. -/
private def told (m : LoadMemory) : List (Mac × Option ApLoad) := m.map fun p => (p.1, p.2.map ApLoad.of)

omit [ScrollRule] in
private theorem latest_snoc (l : List (Mac × Option ApLoad)) (w who : Mac) (x y : Option ApLoad) :
    Latest (l ++ [(w, x)]) who y ↔ who = w ∧ y = x ∨ who ≠ w ∧ Latest l who y := by
  constructor
  · rintro ⟨pre, post, h1, h2⟩
    rcases List.eq_nil_or_concat post with rfl | ⟨post, z, rfl⟩
    · obtain ⟨rfl, h⟩ := List.append_inj' h1 rfl
      simp only [List.cons.injEq, Prod.mk.injEq, and_true] at h
      exact .inl ⟨h.1.symm, h.2.symm⟩
    · rw [List.concat_eq_append, ← List.cons_append, ← List.append_assoc] at h1
      obtain ⟨rfl, h⟩ := List.append_inj' h1 rfl
      simp only [List.cons.injEq, and_true] at h
      subst h
      exact .inr ⟨fun e => h2 (w, x) (by simp) e.symm, pre, post, rfl, fun y hy => h2 y (by simp [hy])⟩
  · rintro (⟨rfl, rfl⟩ | ⟨hne, pre, post, rfl, h2⟩)
    · exact ⟨l, [], rfl, by simp⟩
    · refine ⟨pre, post ++ [(w, x)], by simp, ?_⟩
      intro y hy
      rcases List.mem_append.1 hy with hy | hy
      · exact h2 y hy
      · obtain rfl := List.mem_singleton.1 hy
        exact fun e => hne e.symm

omit [ScrollRule] in
private theorem note_keeps (l : List (Mac × Option ApLoad)) (m : LoadMemory) (h : ∀ who x, Latest l who x ↔ (who, x) ∈ told m)
    (w : Mac) (e : Option BSSLoadElement) (who : Mac) (x : Option ApLoad) :
    Latest (l ++ [(w, e.map ApLoad.of)]) who x ↔ (who, x) ∈ told (m.note w e) := by
  rw [latest_snoc, h]
  simp only [told, LoadMemory.note, List.map_cons, List.mem_cons, Prod.mk.injEq, List.mem_map, List.mem_filter, bne_iff_ne,
    Prod.exists]
  constructor
  · rintro (h | ⟨h1, a, b, h2, rfl, rfl⟩)
    · exact .inl h
    · exact .inr ⟨a, b, ⟨h2, h1⟩, rfl, rfl⟩
  · rintro (h | ⟨a, b, ⟨h2, h1⟩, rfl, rfl⟩)
    · exact .inl h
    · exact .inr ⟨h1, a, b, h2, rfl, rfl⟩

/-! ## Choice -/

omit [ScrollRule] in
private theorem choose_best (need : Nat) (m : LoadMemory) :
    match m.choose need with
    | none => ∀ who x, (who, some x) ∈ told m → x.capacity < need
    | some (who, e) => (who, some (ApLoad.of e)) ∈ told m ∧ need ≤ (ApLoad.of e).capacity ∧
      ∀ other y, (other, some y) ∈ told m → need ≤ y.capacity → ¬ Emptier y (ApLoad.of e) := by
  induction m with
  | nil => simp [LoadMemory.choose, told]
  | cons p m ih =>
    obtain ⟨w, o⟩ := p
    have hmem (who : Mac) (x : ApLoad) : (who, some x) ∈ told ((w, o) :: m) ↔
        (who = w ∧ some x = o.map ApLoad.of) ∨ (who, some x) ∈ told m := by
      simp [told]
    simp only [hmem]
    cases o with
    | none =>
      simp only [LoadMemory.choose, Option.map_none, reduceCtorEq, and_false, false_or]
      exact ih
    | some x =>
      simp only [LoadMemory.choose, Option.map_some, Option.some.injEq]
      by_cases hx : x.available_admission_capacity.toNat < need
      · rw [if_pos hx]
        cases hc : LoadMemory.choose need m with
        | none =>
          rw [hc] at ih
          rintro who y (⟨rfl, rfl⟩ | h)
          · exact hx
          · exact ih who y h
        | some q =>
          rw [hc] at ih
          obtain ⟨h1, h2, h3⟩ := ih
          refine ⟨.inr h1, h2, ?_⟩
          rintro other y (⟨rfl, rfl⟩ | h) hy
          · exact absurd hx (by simp only [ApLoad.of] at hy; omega)
          · exact h3 other y h hy
      · rw [if_neg hx]
        cases hc : LoadMemory.choose need m with
        | none =>
          rw [hc] at ih
          refine ⟨.inl ⟨rfl, rfl⟩, by simp only [ApLoad.of]; omega, ?_⟩
          rintro other y (⟨rfl, rfl⟩ | h) hy
          · unfold Emptier; omega
          · have := ih other y h; omega
        | some q =>
          rw [hc] at ih
          obtain ⟨v, e⟩ := q
          obtain ⟨h1, h2, h3⟩ := ih
          have hiff : (decide (e.channel_utilization < x.channel_utilization) ||
              (e.channel_utilization == x.channel_utilization && decide (e.station_count < x.station_count))) = true ↔
              Emptier (ApLoad.of e) (ApLoad.of x) := by
            simp only [Emptier, ApLoad.of, Bool.or_eq_true, Bool.and_eq_true, decide_eq_true_eq, beq_iff_eq, BitVec.lt_def,
              BitVec.toNat_eq]
          by_cases hb : Emptier (ApLoad.of e) (ApLoad.of x)
          · simp only [if_pos (hiff.2 hb)]
            refine ⟨.inr h1, h2, ?_⟩
            rintro other y (⟨rfl, rfl⟩ | h) hy
            · unfold Emptier at *; omega
            · exact h3 other y h hy
          · simp only [if_neg (fun h => hb (hiff.1 h))]
            refine ⟨.inl (by simp), by simp only [ApLoad.of]; omega, ?_⟩
            rintro other y (⟨rfl, rfl⟩ | h) hy
            · unfold Emptier; omega
            · have := h3 other y h hy
              unfold Emptier at *; omega

variable [Crc32]

/-! ## The property -/

private theorem heard_network (resp : Bool) (a : Surroundings) (name : Str) (fcs : Bool)
    (h : (OnAir.network resp a name).Fine fcs) :
    ∃ size, ∀ buf : Bytes, size ≤ buf.length → ∃ frame o, announce resp a name fcs buf = .ok frame ∧
      loadHeard fcs frame = .ok (some (a.header.bssid, o)) ∧ o.map ApLoad.of = loadIn (a.elements name) := by
  obtain ⟨ha, hn1, hn2⟩ := h
  have hn : SSIDLikeElement.new name = some ⟨name⟩ := (c10_new _ _).2 ⟨hn2, rfl⟩
  obtain ⟨x, hx⟩ := announced_item name _ hn
  obtain ⟨size, hA⟩ := announce_arrives resp a ha _ _ x hx (fun _ => hn1) fcs
  refine ⟨size, fun buf hb => ?_⟩
  obtain ⟨frame, els, h1, ⟨j, h2⟩, h3⟩ := hA buf hb
  obtain ⟨o, h4, h5⟩ := c109_exact els _ h3
  refine ⟨frame, o, by rw [announce, hn]; exact h1, ?_, h5⟩
  simp only [loadHeard, h2, h4, Res.ok_bind]
  rfl

private theorem heard_other (fcs : Bool) (f : Bytes) (h : (OnAir.other f).Fine fcs) : loadHeard fcs f = .ok none := by
  obtain ⟨h1, h2, h3⟩ := h
  obtain ⟨e, he⟩ := (match_mgmt readBeaconLike readBeaconLike_safe (fun r => (r.1.bssid, r.2.elements))
    [.Beacon, .ProbeResponse] (by decide) fcs f).2.1 (by
      intro k hk
      simp only [List.mem_cons, List.not_mem_nil, or_false] at hk
      rcases hk with rfl | rfl
      · exact h1
      · exact h2) h3
  simp only [List.map_cons, List.map_nil] at he
  simp only [loadHeard, he]

private theorem listen_keeps (fcs : Bool) (l : List OnAir) (hl : ∀ x ∈ l, x.Fine fcs) :
    ∃ size, ∀ buf : Bytes, size ≤ buf.length → ∃ frames, transmit fcs buf l = .ok frames ∧
      ∀ (l0 : List (Mac × Option ApLoad)) (m : LoadMemory), (∀ who x, Latest l0 who x ↔ (who, x) ∈ told m) →
      ∃ m', listenLoads fcs frames m = .ok m' ∧ ∀ who x, Latest (l0 ++ wordsOn l) who x ↔ (who, x) ∈ told m' := by
  induction l with
  | nil => exact ⟨0, fun _ _ => ⟨[], rfl, fun l0 m h => ⟨m, rfl, by simpa [wordsOn] using h⟩⟩⟩
  | cons x l ih =>
    obtain ⟨size, ih⟩ := ih fun y hy => hl y (by simp [hy])
    cases x with
    | other f =>
      have hf := heard_other fcs f (hl (.other f) (by simp))
      refine ⟨size, fun buf hb => ?_⟩
      obtain ⟨frames, h1, h2⟩ := ih buf hb
      refine ⟨f :: frames, by simp only [transmit, h1, Res.ok_bind]; rfl, fun l0 m h => ?_⟩
      obtain ⟨m', h3, h4⟩ := h2 l0 m h
      exact ⟨m', by simp only [listenLoads, hf, Res.ok_bind, h3], h4⟩
    | network r a name =>
      obtain ⟨size', hA⟩ := heard_network r a name fcs (hl (.network r a name) (by simp))
      refine ⟨max size size', fun buf hb => ?_⟩
      obtain ⟨frames, h1, h2⟩ := ih buf (by omega)
      obtain ⟨f, o, h4, h5, h6⟩ := hA buf (by omega)
      refine ⟨f :: frames, by simp only [transmit, h1, h4, Res.ok_bind]; rfl, fun l0 m h => ?_⟩
      obtain ⟨m', h7, h8⟩ := h2 _ _ (note_keeps l0 m h a.header.bssid o)
      refine ⟨m', by simp only [listenLoads, h5, Res.ok_bind, h7], ?_⟩
      rw [h6, List.append_assoc] at h8
      exact h8

/-- Whatever is on the air, a station goes to an access point that by its latest word has enough capacity and than which no
other with enough capacity is emptier by its latest word; and it goes nowhere exactly if none has enough.  Partial: HT control
must agree with the order bit, and under the strict rule of `scroll` neither names nor the last elements are empty. -/
theorem c109_choice_partial (fcs : Bool) (need : Nat) (l : List OnAir) (hl : ∀ x ∈ l, x.Fine fcs) :
    ∃ size, ∀ buf : Bytes, size ≤ buf.length → ∃ frames where_, transmit fcs buf l = .ok frames ∧
      goWhere fcs need frames = .ok where_ ∧ BestRoom (wordsOn l) need where_ := by
  obtain ⟨size, h⟩ := listen_keeps fcs l hl
  refine ⟨size, fun buf hb => ?_⟩
  obtain ⟨frames, h1, h2⟩ := h buf hb
  obtain ⟨m, h3, h4⟩ := h2 [] [] (by intro who x; simp [told, Latest])
  rw [List.nil_append] at h4
  refine ⟨frames, (m.choose need).map Prod.fst, h1, by simp only [goWhere, h3, Res.ok_bind]; rfl, ?_⟩
  have hb := choose_best need m
  cases hc : m.choose need with
  | none =>
    rw [hc] at hb
    exact fun who x h => hb who x ((h4 _ _).1 h)
  | some q =>
    rw [hc] at hb
    obtain ⟨b1, b2, b3⟩ := hb
    exact ⟨_, (h4 _ _).2 b1, b2, fun other y h => b3 other y ((h4 _ _).1 h)⟩

/-- Nothing panics, unless a check sequence is expected in fewer than four bytes. -/
theorem c109_panics_iff (fcs : Bool) (frame : Bytes) : loadHeard fcs frame = .panic ↔ fcs = true ∧ frame.length < 4 := by
  rw [← (match_mgmt readBeaconLike readBeaconLike_safe (fun r => (r.1.bssid, r.2.elements)) [.Beacon, .ProbeResponse]
    (by decide) fcs frame).1]
  simp only [List.map_cons, List.map_nil]
  unfold loadHeard
  split
  · rename_i hr
    simp [hr]
  · rename_i hr
    simp [hr]
  · rename_i els hr
    obtain ⟨raws, hraws⟩ := elementsOf_exists els
    obtain ⟨o, h1, -⟩ := c109_exact _ _ hraws
    rw [hr, h1]
    simp [pure]

/-- Whatever is received, words are taken only from beacons and probe responses, and only as their elements say. -/
theorem c109_heard_only (fcs : Bool) (frame : Bytes) (who : Mac) (o : Option BSSLoadElement)
    (h : loadHeard fcs frame = .ok (some (who, o))) :
    ∃ (h : ManagementFrameHeader) (b0 : Byte) (fixed els : Bytes) (raws : List RawElement),
      frame = withFcs fcs (b0 :: h.fcf_flags.bits :: (mgmtHeaderWire h ++ (fixed ++ els))) ∧
      (b0.toNat / 4 % 4, b0.toNat / 16) ∈ [(0, 8), (0, 5)] ∧ HtConsistent h ∧ h.bssid = who ∧ fixed.length = 12 ∧
      ElementsOf els raws ∧ o.map ApLoad.of = loadIn raws := by
  have hm := (match_mgmt readBeaconLike readBeaconLike_safe (fun r => (r.1.bssid, r.2.elements)) [.Beacon, .ProbeResponse]
    (by decide) fcs frame).2.2
  simp only [List.map_cons, List.map_nil] at hm
  unfold loadHeard at h
  split at h
  · cases h
  · cases h
  · rename_i j bs els hr
    obtain ⟨inner, hin, k, hk, hkind, ⟨hd, body⟩, n, hread, hx⟩ := hm _ _ hr
    simp only [Prod.mk.injEq] at hx
    obtain ⟨rfl, rfl⟩ := hx
    have hbr : Bounded readBeaconLike := by
      intro inp b k h
      obtain ⟨_, _, _, _, h, _⟩ := c22_beacon.parse inp b k h
      omega
    obtain ⟨b0, rest, m, h1, h2, h3, h4, -⟩ := c23_parse _ hbr false inner hd body n hread
    obtain ⟨fx, h5, h6, -⟩ := c22_beacon.parse _ _ _ h4
    obtain ⟨raws, hraws⟩ := elementsOf_exists body.elements
    obtain ⟨o', h7, h8⟩ := c109_exact _ _ hraws
    rw [h7, Res.ok_bind] at h
    simp only [pure, Res.ok.injEq, Option.some.injEq, Prod.mk.injEq] at h
    obtain ⟨rfl, rfl⟩ := h
    refine ⟨hd, b0, fx, body.elements, raws, ?_, ?_, h3, rfl, h6, hraws, h8⟩
    · rw [hin, h1, h5]
      rfl
    · obtain ⟨c0, c1, r', hc, hk1, hk2, -⟩ := hkind
      rw [h1] at hc
      simp only [withFcs, Bool.false_eq_true, if_false, List.cons.injEq] at hc
      obtain ⟨rfl, -⟩ := hc
      rw [hk1, hk2]
      simp only [List.mem_cons, List.not_mem_nil, or_false] at hk
      rcases hk with rfl | rfl <;> simp [kindNumber]

omit [Crc32] in
/-- What an access point says with the element of the crate is its load, if nothing before it is a BSS load element. -/
theorem c109_said (a : Surroundings) (name : Str) (e : BSSLoadElement) (pre post : List (ChainItem × RawElement))
    (ha : a.after = pre ++ (.typed (bssLoadElem e), ⟨11, toLE e.station_count ++ e.channel_utilization ::
      toLE e.available_admission_capacity⟩) :: post) (hpre : ∀ p ∈ a.before ++ pre, p.2.tlv_type ≠ 11) :
    (∃ x, ItemOf (.typed (bssLoadElem e)) ⟨11, toLE e.station_count ++ e.channel_utilization ::
      toLE e.available_admission_capacity⟩ x) ∧ loadIn (a.elements name) = some (ApLoad.of e) := by
  refine ⟨(c54_bss_load e).item, ?_⟩
  have hnone (l : List (ChainItem × RawElement)) (h : ∀ p ∈ l, p.2.tlv_type ≠ 11) :
      (l.map Prod.snd).findSome? (fun r : RawElement => if r.tlv_type.toNat = 11 ∧ 5 ≤ r.slice.length then some r.slice else none) =
        none := by
    rw [List.findSome?_eq_none_iff]
    intro r hr
    obtain ⟨p, hp, rfl⟩ := List.mem_map.1 hr
    rw [if_neg]
    rintro ⟨h1, -⟩
    exact h p hp (BitVec.eq_of_toNat_eq h1)
  have h1 := hnone a.before fun p hp => hpre p (by simp [hp])
  have h2 := hnone pre fun p hp => hpre p (by simp [hp])
  obtain ⟨s, u, c⟩ := e
  obtain ⟨x1, y1, e1, f1⟩ := two_octets s
  obtain ⟨x3, y3, e3, f3⟩ := two_octets c
  simp only [loadIn, saidIn, Surroundings.elements, ha, List.map_append, List.map_cons, List.findSome?_append,
    List.findSome?_cons, h1, h2, e1, e3]
  simp [octetAt, ApLoad.of, ← f1, ← f3, number_of]

/-- An access point with a load. -/
private def exAp (n : Byte) (stations : BitVec 16) (busy : Byte) (room : BitVec 16) : OnAir :=
  .network false ⟨⟨⟨0⟩, 0, Arr.zero 6, Arr.zero 6, ⟨[2, 0, 0, 0, 0, n], rfl⟩, ⟨0⟩, none⟩, ⟨0, 100, ⟨0⟩, ()⟩, [],
    [(.typed (bssLoadElem ⟨stations, busy, room⟩), ⟨11, toLE stations ++ busy :: toLE room⟩)]⟩ ⟨[0x6d], rfl⟩

/-- Concrete case: the first access point becomes busy, the second has no capacity left, the fourth has more stations than the
third. -/
example :
    letI : ScrollRule := ⟨true⟩
    letI : Crc32 := ⟨fun _ => 0⟩
    (do let fs ← transmit true (List.replicate 60 0)
          [exAp 1 3 10 500, exAp 2 1 5 0, exAp 3 300 20 100, exAp 4 301 20 200, exAp 1 3 90 500]
        goWhere true 50 fs) = .ok (some ⟨[2, 0, 0, 0, 0, 3], rfl⟩) := by
  decide +kernel

/-- Concrete case: such access points are fine. -/
example (fcs : Bool) (n : Byte) (s : BitVec 16) (b : Byte) (r : BitVec 16) : (exAp n s b r).Fine fcs := by
  have hs := slack_le
  refine ⟨⟨by unfold HtConsistent; simp; decide, ?_, ?_⟩, by simp; omega, by simp⟩
  · intro p hp
    simp only [List.nil_append, List.mem_cons, List.not_mem_nil, or_false] at hp
    subst hp
    exact ⟨(c54_bss_load ⟨s, b, r⟩).item, show ¬ (11 : Byte) = 0 by decide⟩
  · intro p hp
    simp only [List.getLast?_singleton, Option.some.injEq] at hp
    subst hp
    simp
    omega

end Verif
