import Verif.Lemmas.Safety
import Verif.Props.C04
import Verif.Props.C16
import Verif.Props.C65
/-!
# C77: traffic announced by an access point is seen by its stations

An access point gives out an association ID, and announces in a beacon which stations it holds traffic for.  The station
looks for its association ID in the beacon.  Neither program is in the crate; they are written here with the functions of
the crate.
-/
namespace Verif

namespace Spec

variable [ScrollRule] [Crc32]

/-- What a station does with a beacon: match the frame, look for the TIM. -/
def timOfBeacon (fcs : Bool) (frame : Bytes) : Res (Option TIMElement) := do
  let r ← matchFrames frame (if fcs then some true else none)
    [armOf MgmtKind.Beacon.frame (readMgmtFrame readBeaconLike) fun r => r.2.elements]
  getFirstElement r.2 timKind

/-- The association IDs that a station is told about; none without a TIM or a bitmap. -/
def told (fcs : Bool) (frame : Bytes) : Res (List AssociationID) := do
  let e ← timOfBeacon fcs frame
  match e.bind (·.bitmap) with
  | none => pure []
  | some b => do
    let l ← b.aidIter
    pure (l.getD [])

/-- What a station does with the answer to its association request: the association ID it is given. -/
def givenAid (fcs : Bool) (frame : Bytes) : Res (Option AssociationID) := do
  let r ← matchFrames frame (if fcs then some true else none)
    [armOf MgmtKind.AssociationResponse.frame (readMgmtFrame readAssociationResponse) fun r => r.2.association_id]
  pure r.2

/-- The frame, written into any buffer that is large enough, tells the stations about the numbers that satisfy `P`, in
ascending order. -/
def Tells (fcs : Bool) (frame : Writer) (P : Nat → Prop) : Prop :=
  ∃ size, ∀ buf : Bytes, size ≤ buf.length → ∃ out n l, frame buf = .ok (out, n) ∧ told fcs (out.take n) = .ok l ∧
    (l.map fun a => a.aid.toNat).Pairwise (· < ·) ∧ ∀ a, a ∈ l.map (fun a => a.aid.toNat) ↔ P a

/-- The beacon of an access point. -/
def beaconWith (h : ManagementFrameHeader) (b : BeaconLikeBody Unit) (c : Chain) (fcs : Bool) : Writer :=
  writeMgmtFrame .Beacon h (writeBeaconLike ⟨b.timestamp, b.beacon_interval, b.capabilities_info, c.obj⟩) fcs

/-- Elements with another one in between. -/
def chainAround (before after : List ChainItem) (i : ChainItem) : Chain :=
  match before with
  | [] => elementChain i after
  | j :: js => elementChain j (js ++ i :: after)

/-- These items are written as these elements, none of which is a TIM. -/
def NoTims (l : List (ChainItem × RawElement)) : Prop := ∀ p ∈ l, (∃ x, ItemOf p.1 p.2 x) ∧ p.2.tlv_type ≠ 5

/-- The answer of an access point to an association request. -/
def responseWith (h : ManagementFrameHeader) (caps : CapabilitiesInformation) (s : IEEE80211StatusCode)
    (o : Option AssociationID) (els : Obj) (fcs : Bool) : Writer :=
  writeMgmtFrame .AssociationResponse h (writeAssociationResponse ⟨caps, s, o, els⟩) fcs

end Spec

open Spec

variable [ScrollRule] [Crc32]

/-- A beacon with any bytes for elements arrives, and the TIM is looked for in these. -/
private theorem beacon_arrives (h : ManagementFrameHeader) (hc : HtConsistent h) (b : BeaconLikeBody Unit) (c : Chain)
    (els : Bytes) (m : Nat) (he : Emits c.write els m) (hl : slack ≤ els.length) (fcs : Bool) :
    ∃ size, ∀ buf : Bytes, size ≤ buf.length → ∃ out n, beaconWith h b c fcs buf = .ok (out, n) ∧
      timOfBeacon fcs (out.take n) = getFirstElement els timKind := by
  have hB := c22_beacon
  have hE := c23_write MgmtKind.Beacon.SUBTYPE (c23_subtypes.1 .Beacon) h
    (writeBeaconLike ⟨b.timestamp, b.beacon_interval, b.capabilities_info, c.obj⟩) _ _
    (hB.writes ⟨b.timestamp, b.beacon_interval, b.capabilities_info, c.obj⟩ _ _ he) fcs
  have hr := hB.reads ⟨b.timestamp, b.beacon_interval, b.capabilities_info, els⟩ trivial hl
  obtain ⟨h1, h2⟩ := c65_mgmt (α := Bytes) .Beacon h hc _ (fun h => by cases h)
    (by simp only [List.length_append]; omega) readBeaconLike _ _ hr (fun r => r.2.elements) [] [] (by simp)
  refine ⟨_, fun buf hb => ⟨_, _, hE.ok buf hb, ?_⟩⟩
  rw [List.take_left]
  cases fcs
  · have h1 : matchFrames _ _ _ = _ := h1
    simp only [timOfBeacon]
    erw [h1]
    rfl
  · have h2 : matchFrames _ _ _ = _ := h2 true
    simp only [timOfBeacon]
    erw [h2]
    rfl


/-! ## The elements of the beacon -/

/-- The item is written as these bytes. -/
private def Piece (i : ChainItem) (bs : Bytes) : Prop :=
  ∃ x, Emits (match i with | .typed e => e.writeWrapped | .raw e => writeRawElement e) bs (bs.length + x) ∧ x ≤ slack ∧
    2 ≤ bs.length

omit [Crc32] in
private theorem piece_of {i : ChainItem} {e : RawElement} {x : Nat} (h : ItemOf i e x) : Piece i (tlv e) := by
  refine ⟨x, ?_, h.extra_le, by rw [tlv_length]; omega⟩
  have := h.emits
  cases i <;> exact this

omit [Crc32] in
private theorem chain_pieces {i : ChainItem} {bs : Bytes} (h : Piece i bs) (ps : List (ChainItem × Bytes))
    (hp : ∀ p ∈ ps, Piece p.1 p.2) : ∃ m, Emits (elementChain i (ps.map Prod.fst)).write (bs ++ ps.flatMap Prod.snd) m ∧
      m ≤ (bs ++ ps.flatMap Prod.snd).length + slack := by
  have hs := slack_le
  induction ps generalizing i bs with
  | nil =>
    obtain ⟨x, h1, h2, h3⟩ := h
    refine ⟨bs.length + x, ?_, by simp; omega⟩
    cases i with
    | typed e' => exact (Emits.pwrite0 h1).cast (by simp) (by omega)
    | raw e' => exact (Emits.pwrite0 h1).cast (by simp) (by omega)
  | cons p ps ih =>
    obtain ⟨x, h1, h2, h3⟩ := h
    obtain ⟨m, h4, h5⟩ := ih (hp p List.mem_cons_self) fun q hq => hp q (List.mem_cons_of_mem _ hq)
    have h6 := h4.le
    obtain ⟨_, _, _, h7⟩ := hp p List.mem_cons_self
    simp only [List.length_append] at h5 h6
    refine ⟨bs.length + m, ?_, by simp only [List.flatMap_cons, List.length_append]; omega⟩
    cases i with
    | typed e' =>
      exact (WEmits.run (WEmits.bind (WEmits.gwrite h1) (WEmits.gwrite h4))).cast (by simp) (by omega)
    | raw e' =>
      exact (WEmits.run (WEmits.bind (WEmits.gwrite h1) (WEmits.gwrite h4))).cast (by simp) (by omega)

omit [Crc32] in
private theorem around_emits (before after : List (ChainItem × RawElement)) (hb : NoTims before) (ha : NoTims after)
    {i : ChainItem} {bs : Bytes} (hi : Piece i bs) :
    ∃ m, Emits (chainAround (before.map Prod.fst) (after.map Prod.fst) i).write
      ((before.map Prod.snd).flatMap tlv ++ (bs ++ (after.map Prod.snd).flatMap tlv)) m := by
  have conv : ∀ l : List (ChainItem × RawElement),
      (l.map fun p => (p.1, tlv p.2)).map Prod.fst = l.map Prod.fst ∧
      (l.map fun p => (p.1, tlv p.2)).flatMap Prod.snd = (l.map Prod.snd).flatMap tlv := by
    intro l
    constructor
    · simp
    · simp [List.flatMap_map]
  have pieces : ∀ l, NoTims l → ∀ p ∈ l.map (fun p => (p.1, tlv p.2)), Piece p.1 p.2 := by
    intro l hl p hp
    obtain ⟨q, hq, rfl⟩ := List.mem_map.1 hp
    obtain ⟨⟨x, hx⟩, _⟩ := hl q hq
    exact piece_of hx
  cases before with
  | nil =>
    obtain ⟨m, h, _⟩ := chain_pieces hi _ (pieces after ha)
    rw [(conv after).1, (conv after).2] at h
    exact ⟨m, h⟩
  | cons p ps =>
    obtain ⟨⟨x, hx⟩, _⟩ := hb p List.mem_cons_self
    obtain ⟨m, h, _⟩ := chain_pieces (piece_of hx) (ps.map (fun p => (p.1, tlv p.2)) ++ (i, bs) ::
      after.map (fun p => (p.1, tlv p.2))) (by
        intro q hq
        rcases List.mem_append.1 hq with hq | hq
        · exact pieces ps (fun q hq => hb q (List.mem_cons_of_mem _ hq)) q hq
        · rcases List.mem_cons.1 hq with rfl | hq
          · exact hi
          · exact pieces after ha q hq)
    simp only [List.map_append, List.map_cons, List.flatMap_append, List.flatMap_cons, (conv after).1, (conv after).2,
      (conv ps).1, (conv ps).2] at h
    refine ⟨m, h.cast (by simp) rfl⟩

omit [Crc32] in
/-- The first TIM among elements is found, whatever comes after it. -/
private theorem tim_found (before : List (ChainItem × RawElement)) (hb : NoTims before) (p rest : Bytes)
    (hl : 2 ≤ p.length ∧ p.length ≤ 255) (e : TIMElement) (k : Nat) (hr : readTIM p = .ok (e, k)) :
    getFirstElement ((before.map Prod.snd).flatMap tlv ++ (tlv ⟨5, p⟩ ++ rest)) timKind = .ok (some e) := by
  have hs := slack_le
  obtain ⟨l, hel⟩ := elementsOf_exists rest
  have h1 : ElementsOf (tlv ⟨5, p⟩ ++ rest) (⟨5, p⟩ :: l) :=
    .elem _ hl.2 (not_noElement hl.2 (by simp; omega)) hel
  have h2 : ElementsOf ((before.map Prod.snd).flatMap tlv ++ (tlv ⟨5, p⟩ ++ rest))
      (before.map Prod.snd ++ ⟨5, p⟩ :: l) := by
    clear hl
    induction before with
    | nil => exact h1
    | cons q qs ih =>
      obtain ⟨⟨x, hx⟩, _⟩ := hb q List.mem_cons_self
      have hq := hx.len_le
      rw [List.map_cons, List.flatMap_cons, List.append_assoc, List.cons_append]
      exact .elem _ hq (not_noElement hq (by simp [tlv_length]; omega))
        (ih fun q hq => hb q (List.mem_cons_of_mem _ hq))
  refine c07_first_partial h2 timKind (by simp [timKind]) ?_ _ l p e rfl ?_ ?_
  · intro p hp
    have := readTIM_safe p
    rw [show readTIM p = .panic from hp] at this
    exact this
  · intro r hr
    obtain ⟨q, hq, rfl⟩ := List.mem_map.1 hr
    exact (hb q hq).2
  · simp only [parsed, timKind, hr]
    rw [if_neg (by omega)]


/-- A beacon whose TIM element is written as an element with these contents, and perhaps further bytes. -/
private theorem delivered (h : ManagementFrameHeader) (hc : HtConsistent h) (body : BeaconLikeBody Unit)
    (before after : List (ChainItem × RawElement)) (hb : NoTims before) (ha : NoTims after) (i : ChainItem)
    (p stray : Bytes) (hi : Piece i (tlv ⟨5, p⟩ ++ stray)) (hl : 2 ≤ p.length ∧ p.length ≤ 255) (e : TIMElement)
    (k : Nat) (hr : readTIM p = .ok (e, k)) (fcs : Bool) :
    ∃ size, ∀ buf : Bytes, size ≤ buf.length → ∃ out n,
      beaconWith h body (chainAround (before.map Prod.fst) (after.map Prod.fst) i) fcs buf = .ok (out, n) ∧
      timOfBeacon fcs (out.take n) = .ok (some e) := by
  have hs := slack_le
  obtain ⟨m, he⟩ := around_emits before after hb ha hi
  obtain ⟨size, hz⟩ := beacon_arrives h hc body _ _ _ he (by simp [tlv]; omega) fcs
  refine ⟨size, fun buf hbuf => ?_⟩
  obtain ⟨out, n, h1, h2⟩ := hz buf hbuf
  refine ⟨out, n, h1, h2.trans ?_⟩
  rw [List.append_assoc]
  exact tim_found before hb p _ hl e k hr

private theorem tells_of {frame : Writer} {fcs : Bool} {e : TIMElement} {b : TIMBitmap} {P : Nat → Prop}
    (h : ∃ size, ∀ buf : Bytes, size ≤ buf.length → ∃ out n, frame buf = .ok (out, n) ∧
      timOfBeacon fcs (out.take n) = .ok (some e)) (he : e.bitmap = some b) (hr : ReadsBack b P) :
    Tells fcs frame P := by
  obtain ⟨size, h⟩ := h
  obtain ⟨l, h1, h2, h3⟩ := hr
  refine ⟨size, fun buf hb => ?_⟩
  obtain ⟨out, n, hw, ht⟩ := h buf hb
  refine ⟨out, n, l, hw, ?_, h2, h3⟩
  simp only [told, ht, Res.ok_bind, Option.bind_some, he, h1]
  rfl

omit [Crc32] in
/-- A TIM element with a bitmap of bytes or from the macros, as an element. -/
private theorem tim_item (e : TIMElement) (hd : ¬ e.dtim_period < e.dtim_count) (b : TIMBitmap) (hb : e.bitmap = some b)
    (bits : TIMBits) (hp : b.partial_virtual_bitmap = some bits) (hns : ∀ a n, bits ≠ .static a n) (map : Bytes)
    (hm : bits.asBytes = .ok map) (hl : map.length ≤ 252) :
    ∃ te, timElem e = .ok te ∧ Piece (.typed te) (tlv ⟨5, timBytes e map⟩ ++ []) ∧
      (timBytes e map).length = 3 + map.length := by
  have hs := slack_le
  have hlen : (timBytes e map).length = 3 + map.length := by simp [timBytes, hb, hp]; omega
  obtain ⟨n, hn, _, hw⟩ := (c16_write e map (by
    intro b' bits' h1 h2
    rw [hb] at h1
    cases h1
    rw [hp] at h2
    cases h2
    exact hm)).2 hd
  have hme : measureTIM e = .ok (3 + map.length) := by
    have : bits.measure = .ok map.length := by
      cases bits with
      | slice bs => simp only [TIMBits.asBytes, Res.ok.injEq] at hm; subst hm; rfl
      | static bs n => exact absurd rfl (hns bs n)
      | const bs n1 n2 => simp only [TIMBits.measure, hm, Res.map]
    simp only [measureTIM, hb, TIMBitmap.measure, hp, this, Res.map]
    congr 1; omega
  refine ⟨⟨.Id 5, ⟨writeTIM e, 3 + map.length⟩⟩, by rw [timElem, hme]; rfl, ?_, hlen⟩
  rw [List.append_nil]
  exact piece_of (ItemOf.typed ⟨.Id 5, ⟨writeTIM e, 3 + map.length⟩⟩ _ n hw hn hlen.symm (by
    show (timBytes e map).length ≤ 255
    omega))

/-! ## What the stations are told -/

/-- A TIM with bytes for a bitmap, in a beacon with any other elements, with or without check sequence: the stations are
told about the associations marked in the bytes, except for the very first bit of them.  (The full statement has no
exception: `c77_first_missed`.) -/
theorem c77_bytes_partial (h : ManagementFrameHeader) (hc : HtConsistent h) (body : BeaconLikeBody Unit)
    (before after : List (ChainItem × RawElement)) (hb : NoTims before) (ha : NoTims after) (count period : Byte)
    (hd : ¬ period < count) (ctl : TIMBitmapControl) (map : Bytes) (hl : map.length ≤ 252) (fcs : Bool) :
    ∃ te, timElem ⟨count, period, some ⟨ctl, some (.slice map)⟩⟩ = .ok te ∧
      Tells fcs (beaconWith h body (chainAround (before.map Prod.fst) (after.map Prod.fst) (.typed te)) fcs)
        fun a => Announced ctl.n1 map a ∧ a ≠ 8 * ctl.n1 := by
  obtain ⟨te, h1, h2, h3⟩ := tim_item ⟨count, period, some ⟨ctl, some (.slice map)⟩⟩ hd _ rfl _ rfl (by simp) map rfl hl
  obtain ⟨b', h4, h5, h6, _⟩ := c16_round_trip ⟨count, period, some ⟨ctl, some (.slice map)⟩⟩ _ _ map hd rfl rfl rfl
  refine ⟨te, h1, tells_of (delivered h hc body before after hb ha _ _ _ h2 (by omega) _ _ h4 fcs) rfl ?_⟩
  have := c16_aid_iter_partial b' _ map h6 rfl (by omega)
  rwa [h5] at this

/-- The counter, the interval and the flag for group traffic arrive too: the element is the one sent. -/
theorem c77_element (h : ManagementFrameHeader) (hc : HtConsistent h) (body : BeaconLikeBody Unit)
    (before after : List (ChainItem × RawElement)) (hb : NoTims before) (ha : NoTims after) (count period : Byte)
    (hd : ¬ period < count) (ctl : TIMBitmapControl) (map : Bytes) (hl : map.length ≤ 252) (fcs : Bool) :
    ∃ te size, timElem ⟨count, period, some ⟨ctl, some (.slice map)⟩⟩ = .ok te ∧
      ∀ buf : Bytes, size ≤ buf.length → ∃ out n,
        beaconWith h body (chainAround (before.map Prod.fst) (after.map Prod.fst) (.typed te)) fcs buf = .ok (out, n) ∧
        timOfBeacon fcs (out.take n) = .ok (some ⟨count, period, some ⟨ctl, some (.slice map)⟩⟩) := by
  obtain ⟨te, h1, h2, h3⟩ := tim_item ⟨count, period, some ⟨ctl, some (.slice map)⟩⟩ hd _ rfl _ rfl (by simp) map rfl hl
  obtain ⟨⟨c, p⟩, h4, h5, h6, _⟩ :=
    c16_round_trip ⟨count, period, some ⟨ctl, some (.slice map)⟩⟩ _ _ map hd rfl rfl rfl
  dsimp only at h5 h6
  subst h5 h6
  obtain ⟨size, g⟩ := delivered h hc body before after hb ha _ _ _ h2 (by omega) _ _ h4 fcs
  exact ⟨te, size, h1, g⟩

/-- Whatever a bitmap of the macros reads back on the sending side, the stations are told. -/
private theorem macro_tells (h : ManagementFrameHeader) (hc : HtConsistent h) (body : BeaconLikeBody Unit)
    (before after : List (ChainItem × RawElement)) (hb : NoTims before) (ha : NoTims after) (count period : Byte)
    (hd : ¬ period < count) (b : TIMBitmap) (pvb : Bytes) (n1 n2 : Nat) (hp : pvb.length = 251)
    (hb' : b.partial_virtual_bitmap = some (.const pvb n1 n2)) {P : Nat → Prop} (hr : ReadsBack b P) (fcs : Bool) :
    ∃ te, timElem ⟨count, period, some b⟩ = .ok te ∧
      Tells fcs (beaconWith h body (chainAround (before.map Prod.fst) (after.map Prod.fst) (.typed te)) fcs) P := by
  obtain ⟨map, hm⟩ : ∃ map, (TIMBits.const pvb n1 n2).asBytes = .ok map := by
    obtain ⟨l, hl, _⟩ := hr
    rw [TIMBitmap.aidIter, hb'] at hl
    cases hx : (TIMBits.const pvb n1 n2).asBytes with
    | ok map => exact ⟨map, rfl⟩
    | err x => simp only [hx] at hl; cases hl
    | panic => simp only [hx] at hl; cases hl
  have hl : map.length ≤ 252 := by
    rw [TIMBits.asBytes] at hm
    split at hm
    · cases hm
      simp
      omega
    · cases hm
  obtain ⟨te, h1, h2, h3⟩ := tim_item ⟨count, period, some b⟩ hd _ rfl _ hb' (by simp) map hm hl
  obtain ⟨b', h4, h5, h6, h7⟩ := c16_round_trip ⟨count, period, some b⟩ _ _ map hd rfl hb' hm
  refine ⟨te, h1, tells_of (delivered h hc body before after hb ha _ _ _ h2 (by omega) _ _ h4 fcs) rfl ?_⟩
  obtain ⟨l, g⟩ := hr
  exact ⟨l, by rw [h7]; exact g.1, g.2⟩

/-- A TIM from the listing macro: the stations listed are told, except for the station `16 * (lo / 16)` where `lo` is the
lowest of them. -/
theorem c77_listing_partial (h : ManagementFrameHeader) (hc : HtConsistent h) (body : BeaconLikeBody Unit)
    (before after : List (ChainItem × RawElement)) (hb : NoTims before) (ha : NoTims after) (count period : Byte)
    (hd : ¬ period < count) (aids : List Nat) (hv : ∀ a ∈ aids, a ≤ 2007) (lo : Nat)
    (hlo : Lowest lo (aids.filter (· ≠ 0))) (fcs : Bool) :
    ∃ b te, timListing aids = .ok b ∧ timElem ⟨count, period, some b⟩ = .ok te ∧
      Tells fcs (beaconWith h body (chainAround (before.map Prod.fst) (after.map Prod.fst) (.typed te)) fcs)
        fun a => a ∈ aids ∧ a ≠ 0 ∧ a ≠ 16 * (lo / 16) := by
  obtain ⟨b, h1, _, h3⟩ := (c16_listing_exact aids lo hlo).1 hv
  obtain ⟨⟨pvb, n1, n2⟩, hr, ht⟩ := (timListingLoop_spec aids (List.replicate 251 0) 251 0 List.length_replicate).1 hv
  have hx := h1
  simp only [timListing, hr, Res.ok_bind, Res.pure_eq, Res.ok.injEq] at hx
  obtain ⟨te, h4, h5⟩ := macro_tells h hc body before after hb ha count period hd b pvb (n1 &&& 0xfe) n2
    (ht.len.trans List.length_replicate) (by rw [← hx]) h3 fcs
  exact ⟨b, te, h1, h4, h5⟩

/-- A TIM from the range macro. -/
theorem c77_range_partial (h : ManagementFrameHeader) (hc : HtConsistent h) (body : BeaconLikeBody Unit)
    (before after : List (ChainItem × RawElement)) (hb : NoTims before) (ha : NoTims after) (count period : Byte)
    (hd : ¬ period < count) (lo hi : Nat) (hl : lo ≤ hi) (hv : hi ≤ 2007) (fcs : Bool) :
    ∃ b te, timRange lo hi = .ok b ∧ timElem ⟨count, period, some b⟩ = .ok te ∧
      Tells fcs (beaconWith h body (chainAround (before.map Prod.fst) (after.map Prod.fst) (.typed te)) fcs)
        fun a => lo ≤ a ∧ a ≤ hi ∧ a ≠ 0 ∧ a ≠ 16 * (lo / 16) := by
  obtain ⟨b, h1, _, h3⟩ := (c16_range_exact lo hi hl).1 hv
  obtain ⟨pvb, hr, hpl, _⟩ := timRangeLoop_spec (hi + 1 - lo) lo (List.replicate 251 0)
    (by rw [List.length_replicate]; omega)
  have hx := h1
  simp only [timRange, if_pos hv, hr, Res.ok_bind, Res.pure_eq, Res.ok.injEq] at hx
  obtain ⟨te, h4, h5⟩ := macro_tells h hc body before after hb ha count period hd b pvb ((lo / 8) &&& 0xfe) (hi / 8)
    (hpl.trans List.length_replicate) (by rw [← hx]) h3 fcs
  exact ⟨b, te, h1, h4, h5⟩

/-- Violation: a TIM from `new_static`.  The element loses the last byte of the bitmap, and the bitmap begins with byte 0
although N1 says otherwise.  So the stations told are those at a distance of `16 * (lo / 16)` from a station listed, and
none for the stations in the same byte as the highest one. -/
theorem c77_static_wrong (h : ManagementFrameHeader) (hc : HtConsistent h) (body : BeaconLikeBody Unit)
    (before after : List (ChainItem × RawElement)) (hb : NoTims before) (ha : NoTims after) (count period : Byte)
    (hd : ¬ period < count) (m : Bool) (aids : List AssociationID) (hlen : aids.length ≤ 2007)
    (hv : ∀ a ∈ aids, 1 ≤ a.aid.toNat ∧ a.aid.toNat ≤ 2007) (lo hi : Nat)
    (hlo : Lowest lo (aids.map fun a => a.aid.toNat))
    (hhi : hi ∈ aids.map (fun a => a.aid.toNat) ∧ ∀ a ∈ aids.map (fun a => a.aid.toNat), a ≤ hi) (fcs : Bool) :
    ∃ b te, TIMBitmap.newStatic m aids = .ok b ∧ timElem ⟨count, period, some b⟩ = .ok te ∧
      Tells fcs (beaconWith h body (chainAround (before.map Prod.fst) (after.map Prod.fst) (.typed te)) fcs)
        fun a => a ≤ 2007 ∧ ∃ x, (x ∈ aids.map (fun a => a.aid.toNat) ∨ (m = true ∧ lo < 8 ∧ x = 1)) ∧
          x / 8 < hi / 8 ∧ a = 16 * (lo / 16) + x := by
  obtain ⟨b, pvb, n1, n2, h1, h2, h3, h4, h5, h6, h6', h7, _, h9, h9', h10⟩ := newStatic_spec m aids hlen hv
  have hn1 := h7 lo hlo
  have hn2 : n2 = hi / 8 := by
    obtain ⟨y, hy, rfl⟩ := List.mem_map.1 hhi.1
    have := h9 y hy
    rcases h9' with h0 | ⟨z, hz, hz'⟩
    · omega
    · have := hhi.2 _ (List.mem_map_of_mem (f := fun a : AssociationID => a.aid.toNat) hz)
      omega
  obtain ⟨ctl, part⟩ := b
  simp only at h3 h4
  subst h4
  let e : TIMElement := ⟨count, period, some ⟨ctl, some (.static pvb n2)⟩⟩
  have hm := (c16_static_measure e ctl pvb n2 rfl (by omega)).1
  obtain ⟨bytes, hE, last, hbytes, _, _⟩ := c16_wrapped_static_truncated e ctl pvb n2 hd rfl (by omega) h6
  have hlen' : (timBytes e (pvb.take n2)).length = 3 + n2 := by
    simp [timBytes, e]; omega
  have hpiece : Piece (.typed ⟨.Id 5, ⟨writeTIM e, 3 + n2⟩⟩) (tlv ⟨5, timBytes e (pvb.take n2)⟩ ++ [last]) := by
    refine ⟨0, ?_, by omega, by simp [tlv]⟩
    rw [← hbytes]
    exact hE.cast rfl (by rw [hbytes]; simp [tlv_length, hlen']; omega)
  let e' : TIMElement := ⟨count, period, some ⟨ctl, some (.slice (pvb.take n2))⟩⟩
  have hr : readTIM (timBytes e (pvb.take n2)) = .ok (e', (timBytes e (pvb.take n2)).length) := by
    obtain ⟨b', g1, g2, g3, _⟩ := c16_round_trip e' _ _ (pvb.take n2) hd rfl rfl rfl
    obtain ⟨c', p'⟩ := b'
    simp only at g2 g3
    subst g2 g3
    exact g1
  refine ⟨_, ⟨.Id 5, ⟨writeTIM e, 3 + n2⟩⟩, h1, by rw [timElem, hm]; rfl,
    tells_of (delivered h hc body before after hb ha _ _ _ hpiece (by omega) e' _ hr fcs) rfl ?_⟩
  obtain ⟨l, hl, hp, hmem⟩ := c16_aid_iter_partial ⟨ctl, some (.slice (pvb.take n2))⟩ _ (pvb.take n2) rfl rfl
    (by simp; omega)
  refine ⟨l, hl, hp, fun a => (hmem a).trans ?_⟩
  unfold Announced
  dsimp only
  rw [h3, hn1, bitAt_take, h10]
  have eq : 8 * (2 * (lo / 8 / 2)) = 16 * (lo / 16) := by omega
  rw [eq]
  constructor
  · rintro ⟨⟨a1, a2, a3, a4⟩, a5⟩
    split at a4
    · rename_i hlt
      refine ⟨a2, a - 16 * (lo / 16), ?_, by omega, by omega⟩
      rcases of_decide_eq_true a4 with h | ⟨hm, h0, hj⟩
      · exact .inl h
      · exact .inr ⟨hm, by omega, hj⟩
    · cases a4
  · rintro ⟨a2, x, hx, hlt, rfl⟩
    have hx1 : 1 ≤ x := by
      rcases hx with hx | ⟨_, _, rfl⟩
      · obtain ⟨y, hy, rfl⟩ := List.mem_map.1 hx
        exact (hv y hy).1
      · omega
    refine ⟨⟨by omega, a2, by omega, ?_⟩, by omega⟩
    rw [show 16 * (lo / 16) + x - 16 * (lo / 16) = x by omega, if_pos (by omega)]
    apply decide_eq_true
    rcases hx with hx | ⟨hm, h8, rfl⟩
    · exact .inl hx
    · exact .inr ⟨hm, by omega, rfl⟩

/-- Violation: an access point with traffic for one station that uses `new_static` tells no station at all. -/
theorem c77_static_nobody (h : ManagementFrameHeader) (hc : HtConsistent h) (body : BeaconLikeBody Unit)
    (before after : List (ChainItem × RawElement)) (hb : NoTims before) (ha : NoTims after) (count period : Byte)
    (hd : ¬ period < count) (m : Bool) (a : AssociationID) (hv : 1 ≤ a.aid.toNat ∧ a.aid.toNat ≤ 2007) (fcs : Bool) :
    ∃ b te, TIMBitmap.newStatic m [a] = .ok b ∧ timElem ⟨count, period, some b⟩ = .ok te ∧
      Tells fcs (beaconWith h body (chainAround (before.map Prod.fst) (after.map Prod.fst) (.typed te)) fcs)
        fun _ => False := by
  obtain ⟨b, te, h1, h2, size, h3⟩ := c77_static_wrong h hc body before after hb ha count period hd m [a] (by simp)
    (by simpa using hv) a.aid.toNat a.aid.toNat ⟨by simp, by simp⟩ ⟨by simp, by simp⟩ fcs
  refine ⟨b, te, h1, h2, size, fun buf hbuf => ?_⟩
  obtain ⟨out, n, l, g1, g2, g3, g4⟩ := h3 buf hbuf
  refine ⟨out, n, l, g1, g2, g3, fun x => (g4 x).trans ⟨?_, False.elim⟩⟩
  rintro ⟨_, y, hy, hlt, _⟩
  rcases hy with hy | ⟨_, h8, rfl⟩
  · simp at hy
    omega
  · omega

/-- Violation: the station of the first bit of the bytes sent is not told, whatever else is announced. -/
theorem c77_first_missed (h : ManagementFrameHeader) (hc : HtConsistent h) (body : BeaconLikeBody Unit)
    (before after : List (ChainItem × RawElement)) (hb : NoTims before) (ha : NoTims after) (count period : Byte)
    (hd : ¬ period < count) (ctl : TIMBitmapControl) (map : Bytes) (hl : map.length ≤ 252) (hn : ctl.n1 ≠ 0)
    (hv : ctl.n1 ≤ 250) (hbit : bitAt map 0 = true) (fcs : Bool) :
    Announced ctl.n1 map (8 * ctl.n1) ∧ ∃ te P, timElem ⟨count, period, some ⟨ctl, some (.slice map)⟩⟩ = .ok te ∧
      Tells fcs (beaconWith h body (chainAround (before.map Prod.fst) (after.map Prod.fst) (.typed te)) fcs) P ∧
      ¬ P (8 * ctl.n1) := by
  refine ⟨⟨by omega, by omega, by omega, by rwa [Nat.sub_self]⟩, ?_⟩
  obtain ⟨te, h1, h2⟩ := c77_bytes_partial h hc body before after hb ha count period hd ctl map hl fcs
  exact ⟨te, _, h1, h2, fun h => h.2 rfl⟩

/-- The station is given the association ID that the access point has chosen, or none if there is none. -/
theorem c77_association (h : ManagementFrameHeader) (hc : HtConsistent h) (caps : CapabilitiesInformation)
    (s : IEEE80211StatusCode) (hs : s.Canonical) (o : Option AssociationID)
    (ho : ∀ a, o = some a → ∃ x, AssociationID.newChecked x = some a) (els : Obj) (bytes : Bytes) (m : Nat)
    (he : Emits els.write bytes m) (hl : slack ≤ bytes.length) (fcs : Bool) :
    ∃ size, ∀ buf : Bytes, size ≤ buf.length → ∃ out n, responseWith h caps s o els fcs buf = .ok (out, n) ∧
      givenAid fcs (out.take n) = .ok o := by
  have hB := c22_association_response
  have hE := c23_write MgmtKind.AssociationResponse.SUBTYPE (c23_subtypes.1 .AssociationResponse) h
    (writeAssociationResponse ⟨caps, s, o, els⟩) _ _ (hB.writes ⟨caps, s, o, els⟩ _ _ he) fcs
  have hr := hB.reads ⟨caps, s, o, bytes⟩ ⟨hs, fun a ha => by
    obtain ⟨x, hx⟩ := ho a ha
    obtain ⟨h1, h2⟩ := (c04_new_checked x a).1 hx
    simp only [AssociationID.intoBits] at h2
    exact ⟨by omega, by omega⟩⟩ hl
  obtain ⟨h1, h2⟩ := c65_mgmt (α := Option AssociationID) .AssociationResponse h hc _ (fun h => by cases h)
    (by simp only [List.length_append]; omega) readAssociationResponse _ _ hr (fun r => r.2.association_id) [] [] (by simp)
  refine ⟨_, fun buf hb => ⟨_, _, hE.ok buf hb, ?_⟩⟩
  rw [List.take_left]
  cases fcs
  · have h1 : matchFrames _ _ _ = _ := h1
    simp only [givenAid]
    erw [h1]
    rfl
  · have h2 : matchFrames _ _ _ = _ := h2 true
    simp only [givenAid]
    erw [h2]
    rfl

/-- From the association to the beacon.  A station is given an association ID; later the access point announces traffic
with the listing macro.  The station finds its number exactly if it was listed, unless the number is `16 * (lo / 16)`. -/
theorem c77_end_to_end_partial (h h' : ManagementFrameHeader) (hc : HtConsistent h) (hc' : HtConsistent h')
    (caps : CapabilitiesInformation) (s : IEEE80211StatusCode) (hs : s.Canonical) (x : BitVec 16) (a : AssociationID)
    (hx : AssociationID.newChecked x = some a) (els : Obj) (bytes : Bytes) (m : Nat)
    (he : Emits els.write bytes m) (hl : slack ≤ bytes.length)
    (body : BeaconLikeBody Unit)
    (before after : List (ChainItem × RawElement)) (hb : NoTims before) (ha : NoTims after) (count period : Byte)
    (hd : ¬ period < count) (aids : List Nat) (hv : ∀ a ∈ aids, a ≤ 2007) (lo : Nat)
    (hlo : Lowest lo (aids.filter (· ≠ 0))) (hne : a.aid.toNat ≠ 16 * (lo / 16)) (fcs : Bool) :
    ∃ b te size, timListing aids = .ok b ∧ timElem ⟨count, period, some b⟩ = .ok te ∧
      ∀ buf buf' : Bytes, size ≤ buf.length → size ≤ buf'.length → ∃ out n out' n' mine l,
        responseWith h caps s (some a) els fcs buf = .ok (out, n) ∧
        givenAid fcs (out.take n) = .ok (some mine) ∧
        beaconWith h' body (chainAround (before.map Prod.fst) (after.map Prod.fst) (.typed te)) fcs buf' = .ok (out', n') ∧
        told fcs (out'.take n') = .ok l ∧
        (mine.aid.toNat ∈ l.map (fun a => a.aid.toNat) ↔ x.toNat % 2 ^ 14 ∈ aids) := by
  obtain ⟨size1, h1⟩ := c77_association h hc caps s hs (some a) (fun b hb => by cases hb; exact ⟨x, hx⟩) els bytes m he hl
    fcs
  obtain ⟨b, te, h2, h3, size2, h4⟩ := c77_listing_partial h' hc' body before after hb ha count period hd aids hv lo hlo
    fcs
  refine ⟨b, te, size1 + size2, h2, h3, fun buf buf' hb hb' => ?_⟩
  obtain ⟨out, n, g1, g2⟩ := h1 buf (by omega)
  obtain ⟨out', n', l, g3, g4, _, g5⟩ := h4 buf' (by omega)
  refine ⟨out, n, out', n', a, l, g1, g2, g3, g4, (g5 _).trans ?_⟩
  have ha := c04_aid x a hx
  have := ((c04_new_checked x a).1 hx).1
  rw [ha] at hne ⊢
  constructor
  · exact fun h => h.1
  · exact fun h => ⟨h, by omega, hne⟩

/-! ## Instances -/

omit [Crc32] in
/-- An element that is not a TIM. -/
theorem c77_no_tims (name : Bytes) (hn : name.length ≤ 255) : NoTims [(.raw ⟨0, name⟩, ⟨0, name⟩)] := by
  intro p hp
  simp only [List.mem_singleton] at hp
  subst hp
  exact ⟨⟨_, .raw _ hn⟩, by show (0 : Byte) ≠ 5; decide⟩

/-- A beacon with a name, a TIM from the macro for the stations 17 and 33, and a vendor element; all hypotheses hold, and
the station 17 is told. -/
example (h : ManagementFrameHeader) (hc : HtConsistent h) (body : BeaconLikeBody Unit) :
    ∃ b te P, timListing [33, 17] = .ok b ∧ timElem ⟨0, 1, some b⟩ = .ok te ∧
      Tells true (beaconWith h body (chainAround [.raw ⟨0, [0x61]⟩] [.raw ⟨0, [0x62]⟩] (.typed te)) true) P ∧ P 17 := by
  obtain ⟨b, te, h1, h2, h3⟩ := c77_listing_partial h hc body _ _ (c77_no_tims [0x61] (by decide))
    (c77_no_tims [0x62] (by decide)) 0 1 (by decide) [33, 17] (by decide) 17 ⟨by decide, by decide⟩ true
  exact ⟨b, te, _, h1, h2, h3, by decide⟩

omit [ScrollRule] [Crc32] in
/-- A whole run with `new_static`: traffic for the stations 4 and 20.  Station 4 is told, 20 is not.  With traffic for
the stations 20 and 60, it is station 36 that is told. -/
example (s : Bool) : letI : ScrollRule := ⟨s⟩
    let _ : Crc32 := ⟨fun bs => BitVec.ofNat 32 bs.length⟩
    let m : Mac := ⟨[1, 2, 3, 4, 5, 6], rfl⟩
    let h : ManagementFrameHeader := ⟨⟨0⟩, 0, m, m, m, ⟨0x30⟩, none⟩
    let run (l : List AssociationID) : Res (List Nat) := do
      let b ← TIMBitmap.newStatic false l
      let te ← timElem ⟨0, 1, some b⟩
      let r ← beaconWith h ⟨9, 100, ⟨1⟩, ()⟩ (chainAround [] [] (.typed te)) true (List.replicate 60 0)
      let l ← told true (r.1.take r.2)
      pure (l.map fun a => a.aid.toNat)
    run [⟨0xc004⟩, ⟨0xc014⟩] = .ok [4] ∧ run [⟨0xc014⟩, ⟨0xc03c⟩] = .ok [36] := by
  cases s <;> decide +kernel

end Verif
