import Verif.Lemmas.EapolSerde
import Verif.Props.C68
/-!
# C90: encrypted frames are taken once, each under its own key

A receiver of encrypted data frames keeps the highest packet number it has seen under each key and drops whatever is not
above it (12.5.2.4.4 of the standard, PN and replay detection).  Both the number and the key are in the header that the
crate puts before the contents.
-/
namespace Verif

namespace Spec

/-- An encrypted frame: the key, the packet number, and the contents. -/
structure Sealed where
  key : Nat
  number : Nat
  content : Bytes
  deriving DecidableEq, Repr

/-- The replay counters of a receiver, one for each key, and what it has taken, newest first. -/
structure Receiver where
  last : Nat → Nat
  taken : List Sealed

/-- A frame is taken if its packet number is above the counter of its key, which it then becomes. -/
def Receiver.take (r : Receiver) (s : Sealed) : Receiver :=
  if r.last s.key < s.number then
    ⟨fun k => if k = s.key then s.number else r.last k, s :: r.taken⟩
  else r

/-- A receiver without counters. -/
def Receiver.fresh : Receiver := ⟨fun _ => 0, []⟩

variable [ScrollRule] [Crc32]

/-- Received bytes, by the functions of the crate: what is not an encrypted data frame, or is an aggregate, is
discarded. -/
def Receiver.receive (m : MicState) (fcs : Bool) (r : Receiver) (bytes : Bytes) : Res Receiver :=
  match matchFrames bytes (if fcs then some true else none) [armOf dataFrameKind readDataFrame id] with
  | .panic => .panic
  | .err _ => .ok r
  | .ok (_, f) =>
    match potentiallyWrappedPayload f (some m) with
    | .panic => .panic
    | .ok (some (.CryptoWrapped ⟨c, .Single content, _⟩)) =>
      .ok (r.take ⟨c.key_id.toNat, c.packet_number.toNat, content⟩)
    | _ => .ok r

/-- One after the other. -/
def Receiver.receiveAll (m : MicState) (fcs : Bool) : Receiver → List Bytes → Res Receiver
  | r, [] => .ok r
  | r, b :: l => do
    let r' ← r.receive m fcs b
    Receiver.receiveAll m fcs r' l

/-- What is sent for an encrypted frame with a given header, by the functions of the crate. -/
def sealOne (h : DataFrameHeader) (m : MicState) (fcs : Bool) (buf : Bytes) (s : Sealed) : Res Bytes :=
  match CryptoHeader.new (BitVec.ofNat 64 s.number) (BitVec.ofNat 8 s.key) with
  | none => .err .badInput
  | some c => do
    let (out, n) ← writeDataFrame (wrappedFrame ⟨h, some (bytesObj s.content)⟩ c m) fcs buf
    pure (out.take n)

/-- Several. -/
def sealAll (h : DataFrameHeader) (m : MicState) (fcs : Bool) (buf : Bytes) : List Sealed → Res (List Bytes)
  | [] => .ok []
  | s :: l => do
    let b ← sealOne h m fcs buf s
    let bs ← sealAll h m fcs buf l
    pure (b :: bs)

/-- Nothing is taken twice: under each key the packet numbers of what was taken rise, up to the counter. -/
def Receiver.Once (r : Receiver) : Prop :=
  ∀ k, ((r.taken.filter (·.key = k)).map (·.number)).Pairwise (· > ·) ∧
    ∀ s ∈ r.taken, s.key = k → s.number ≤ r.last k

/-- A frame that fits: key and number in range, contents not empty and within the buffer. -/
structure Sealed.Fits (h : DataFrameHeader) (m : MicState) (fcs : Bool) (buf : Bytes) (s : Sealed) : Prop where
  key : s.key < 4
  number : s.number < 2 ^ 48
  content : s.content ≠ []
  room : 2 + (dataHeaderWire h).length + (9 + s.content.length + m.micLength) + (if fcs then 4 else 0) ≤ buf.length

/-- A header for data that is not an aggregate. -/
structure PlainHeader (h : DataFrameHeader) : Prop where
  valid : ValidData h
  consistent : HeaderConsistent h
  data : payloadSubtype h.subtype
  single : ¬ CarriesAmsdu h

end Spec

open Spec

variable [ScrollRule] [Crc32]

/-- Sending one frame and receiving it: the receiver sees it under key zero. -/
private theorem one (h : DataFrameHeader) (hh : PlainHeader h) (m : MicState) (fcs : Bool) (buf : Bytes) (s : Sealed)
    (hs : s.Fits h m fcs buf) :
    ∃ b, sealOne h m fcs buf s = .ok b ∧ ∀ r : Receiver, r.receive m fcs b = .ok (r.take { s with key := 0 }) := by
  obtain ⟨key, number, content⟩ := s
  obtain ⟨hk, hn, hc, hroom⟩ := hs
  simp only at hk hn hc hroom
  have hsl := slack_le
  obtain ⟨c, h1, h2, h3⟩ := c31_new_partial (BitVec.ofNat 64 number) (BitVec.ofNat 8 key)
    (by rw [BitVec.toNat_ofNat]; omega) (by rw [BitVec.toNat_ofNat]; omega)
  have hpos : 0 < content.length := List.length_pos_iff.2 hc
  obtain ⟨out, n, f, c', g1, g2, -, g4, g5, -, g7⟩ := c68_protected_partial ⟨h, some (bytesObj content)⟩ _ rfl hh.valid
    hh.consistent hh.data hh.single c m content _ (Emits.bytes content) (fun he => absurd he hc) fcs id [] []
    (fun _ ha => by cases ha) buf (by simp only; omega)
  refine ⟨out.take n, ?_, fun r => ?_⟩
  · simp only [sealOne, h1, g1, Res.ok_bind]
    rfl
  · have g2 : matchFrames (out.take n) (if fcs then some true else none) [armOf dataFrameKind readDataFrame id] =
      .ok (0, f) := g2
    simp only [Receiver.receive, g2, g4, g5, g7, h2]
    congr
    rw [BitVec.toNat_ofNat]; omega

/-- Exactly what a receiver makes of a sequence of encrypted frames, in whatever order and however often they are
delivered: what the rule of the standard makes of the frames if all of them are under key 0. -/
theorem c90_exact (h : DataFrameHeader) (hh : PlainHeader h) (m : MicState) (fcs : Bool) (buf : Bytes) (l : List Sealed)
    (hl : ∀ s ∈ l, s.Fits h m fcs buf) :
    ∃ bs, sealAll h m fcs buf l = .ok bs ∧ ∀ r : Receiver, r.receiveAll m fcs bs =
      .ok ((l.map fun s => { s with key := 0 }).foldl Receiver.take r) := by
  induction l with
  | nil => exact ⟨[], rfl, fun _ => rfl⟩
  | cons s l ih =>
    obtain ⟨b, h1, h2⟩ := one h hh m fcs buf s (hl s (by simp))
    obtain ⟨bs, h3, h4⟩ := ih fun s hs => hl s (by simp [hs])
    refine ⟨b :: bs, ?_, fun r => ?_⟩
    · simp only [sealAll, h1, h3, Res.ok_bind]; rfl
    · simp only [Receiver.receiveAll, h2, Res.ok_bind, h4, List.map_cons, List.foldl_cons]

/-- Frames under key 0 are taken by the rule of the standard. -/
theorem c90_key_zero_partial (h : DataFrameHeader) (hh : PlainHeader h) (m : MicState) (fcs : Bool) (buf : Bytes)
    (l : List Sealed) (hl : ∀ s ∈ l, s.Fits h m fcs buf) (hk : ∀ s ∈ l, s.key = 0) :
    ∃ bs, sealAll h m fcs buf l = .ok bs ∧ ∀ r : Receiver, r.receiveAll m fcs bs = .ok (l.foldl Receiver.take r) := by
  obtain ⟨bs, h1, h2⟩ := c90_exact h hh m fcs buf l hl
  refine ⟨bs, h1, fun r => ?_⟩
  rw [h2]
  congr 1
  congr 1
  conv => rhs; rw [← List.map_id l]
  refine List.map_congr_left fun s hs => ?_
  have := hk s hs
  cases s
  simp only at this
  subst this
  rfl

/-- So if they are delivered in order, all of them are taken. -/
theorem c90_in_order_partial (h : DataFrameHeader) (hh : PlainHeader h) (m : MicState) (fcs : Bool) (buf : Bytes)
    (l : List Sealed) (hl : ∀ s ∈ l, s.Fits h m fcs buf) (hk : ∀ s ∈ l, s.key = 0)
    (ho : (l.map (·.number)).Pairwise (· < ·)) (r : Receiver) (hr : ∀ s ∈ l, r.last 0 < s.number) :
    ∃ bs r', sealAll h m fcs buf l = .ok bs ∧ r.receiveAll m fcs bs = .ok r' ∧ r'.taken = l.reverse ++ r.taken := by
  obtain ⟨bs, h1, h2⟩ := c90_key_zero_partial h hh m fcs buf l hl hk
  refine ⟨bs, _, h1, h2 r, ?_⟩
  clear h1 h2 hl bs
  induction l generalizing r with
  | nil => rfl
  | cons s l ih =>
    have hs := hk s (by simp)
    have hlt := hr s (by simp)
    simp only [List.map_cons, List.pairwise_cons, List.mem_map] at ho
    have ht : r.take s = ⟨fun k => if k = s.key then s.number else r.last k, s :: r.taken⟩ := by
      rw [Receiver.take, hs, if_pos hlt]
    rw [List.foldl_cons, ht, ih (fun s hs => hk s (by simp [hs])) ho.2]
    · simp
    · intro s' hs'
      simp only [hs, if_true]
      exact ho.1 _ ⟨s', hs', rfl⟩

omit [ScrollRule] [Crc32] in
private theorem take_once (r : Receiver) (h : r.Once) (s : Sealed) : (r.take s).Once := by
  unfold Receiver.take
  split
  · rename_i hlt
    intro k
    obtain ⟨h1, h2⟩ := h k
    refine ⟨?_, ?_⟩
    · simp only [List.filter_cons]
      split
      · rename_i hk
        simp only [decide_eq_true_eq] at hk
        refine List.pairwise_cons.2 ⟨?_, h1⟩
        intro n hn
        simp only [List.mem_map, List.mem_filter, decide_eq_true_eq] at hn
        obtain ⟨t, ⟨ht, htk⟩, rfl⟩ := hn
        have := h2 t ht htk
        rw [hk] at hlt
        show t.number < s.number
        omega
      · exact h1
    · intro t ht htk
      show t.number ≤ if k = s.key then s.number else r.last k
      rcases List.mem_cons.1 ht with rfl | ht
      · rw [if_pos htk.symm]; exact Nat.le_refl _
      · have := h2 t ht htk
        split
        · rename_i hk
          rw [← hk] at hlt
          omega
        · exact this
  · exact h

/-- Whatever bytes are received, no packet number is taken twice under the key that the receiver sees, and none below
one that was taken. -/
theorem c90_once (m : MicState) (fcs : Bool) (bytes : List Bytes) (r r' : Receiver) (h : r.Once)
    (hr : r.receiveAll m fcs bytes = .ok r') : r'.Once := by
  induction bytes generalizing r with
  | nil => cases hr; exact h
  | cons b l ih =>
    obtain ⟨t, ht, hr⟩ := Res.bind_eq_ok hr
    refine ih t ?_ hr
    unfold Receiver.receive at ht
    split at ht
    · cases ht
    · cases ht; exact h
    · split at ht
      · cases ht
      · cases ht; exact take_once r h _
      · cases ht; exact h

/-- Whatever bytes are received, what is taken was in one of them: behind the eight octets of the header and before the
MIC, and with the packet number that these octets have. -/
theorem c90_origin (m : MicState) (fcs : Bool) (bytes : List Bytes) (r r' : Receiver)
    (hr : r.receiveAll m fcs bytes = .ok r') (s : Sealed) (hs : s ∈ r'.taken) :
    s ∈ r.taken ∨ ∃ b ∈ bytes, ∃ (i : Nat) (f : DataFrame Bytes) (head : Arr 8) (mic : Bytes),
      matchFrames b (if fcs then some true else none) [armOf dataFrameKind readDataFrame id] = .ok (i, f) ∧
      f.header.fcf_flags.protected_ = true ∧ f.payload = some (head.val ++ (s.content ++ mic)) ∧
      mic.length = m.micLength ∧ extIv head.val = true ∧ s.number = packetNumberOf head.val := by
  induction bytes generalizing r with
  | nil => cases hr; exact .inl hs
  | cons b l ih =>
    obtain ⟨t, ht, hr⟩ := Res.bind_eq_ok hr
    rcases ih t hr with hin | ⟨b', hb', hrest⟩
    · unfold Receiver.receive at ht
      split at ht
      · cases ht
      · cases ht; exact .inl hin
      · rename_i i f hf
        split at ht
        · cases ht
        · rename_i c content m' hp
          cases ht
          have hprot : f.header.fcf_flags.protected_ = true := by
            cases hfl : f.header.fcf_flags.protected_ with
            | true => rfl
            | false =>
              cases hpay : f.payload with
              | none => rw [c32_none f _ (.inl hpay)] at hp; cases hp
              | some p =>
                rw [c32_unprotected f _ p hpay hfl] at hp
                split at hp <;> cases hp
          cases hpay : f.payload with
          | none => rw [c32_none f _ (.inl hpay)] at hp; cases hp
          | some p =>
            by_cases hbad : p.length < 8 + slack + m.micLength ∨ extIv p = false
            · rw [c32_payload_panics f m p hpay hprot hbad] at hp; cases hp
            · have hlen : 8 + slack + m.micLength ≤ p.length := by
                have := fun h => hbad (.inl h)
                omega
              have hext : extIv p = true := by
                cases he : extIv p with
                | true => rfl
                | false => exact absurd (.inr he) hbad
              obtain ⟨head, rest, rfl⟩ := exists_arr 8 (inp := p) (by omega)
              have hext : extIv head.val = true := by
                rw [← hext]
                have : 3 < head.val.length := by simp
                simp only [extIv, List.getD_eq_getElem?_getD, List.getElem?_append_left this]
              have hl : 8 + slack + m.micLength ≤ 8 + rest.length := by simpa using hlen
              obtain ⟨c', hc', hnum, -⟩ := (c31_parse head []).2 hext
              rw [List.append_nil] at hc'
              have hmic : (rest.drop (rest.length - m.micLength)).length = m.micLength := by
                rw [List.length_drop]; omega
              have hsplit : rest = rest.take (rest.length - m.micLength) ++ rest.drop (rest.length - m.micLength) :=
                (List.take_append_drop _ _).symm
              have hgood := c32_protected f m head _ _ (by rw [hpay]; congr 2) hprot hmic c' hc'
                (by rw [List.length_take]; omega)
              rw [hgood] at hp
              split at hp
              · cases hp
              · cases hp
                unfold Receiver.take at hin
                split at hin
                · rcases List.mem_cons.1 hin with rfl | hin
                  · refine .inr ⟨b, by simp, i, f, head, _, hf, hprot, ?_, hmic, hext, hnum⟩
                    rw [hpay, List.take_append_drop]
                  · exact .inl hin
                · exact .inl hin
        · cases ht; exact .inl hin
    · exact .inr ⟨b', List.mem_cons_of_mem _ hb', hrest⟩

/-- Violation: the key is lost.  Whatever key but 0 a frame was sent under, the receiver sees it under key 0, with which it
cannot decrypt it. -/
theorem c90_key_wrong (h : DataFrameHeader) (hh : PlainHeader h) (m : MicState) (fcs : Bool) (buf : Bytes) (s : Sealed)
    (hs : s.Fits h m fcs buf) (hk : s.key ≠ 0) (hn : s.number ≠ 0) :
    ∃ bs r, sealAll h m fcs buf [s] = .ok bs ∧ Receiver.fresh.receiveAll m fcs bs = .ok r ∧
      r.taken = [{ s with key := 0 }] ∧ (Receiver.fresh.take s).taken = [s] ∧ r.taken ≠ [s] := by
  obtain ⟨bs, h1, h2⟩ := c90_exact h hh m fcs buf [s] (by simpa using hs)
  have hpos : 0 < s.number := Nat.pos_of_ne_zero hn
  refine ⟨bs, _, h1, h2 _, ?_, ?_, ?_⟩
  · simp [Receiver.take, Receiver.fresh, hpos]
  · simp [Receiver.take, Receiver.fresh, hpos]
  · simp [Receiver.take, Receiver.fresh, hpos]
    intro he
    exact hk (congrArg Sealed.key he).symm

/-- Violation: therefore traffic is lost when the key changes.  The sender starts the packet numbers of a new key afresh;
the receiver compares them with those of the old key, and drops frames until they are above these. -/
theorem c90_new_key_lost (h : DataFrameHeader) (hh : PlainHeader h) (m : MicState) (fcs : Bool) (buf : Bytes)
    (s s' : Sealed) (hs : s.Fits h m fcs buf) (hs' : s'.Fits h m fcs buf) (hk : s.key ≠ s'.key) (hn : s'.number ≠ 0)
    (hle : s'.number ≤ s.number) :
    ∃ bs r, sealAll h m fcs buf [s, s'] = .ok bs ∧ Receiver.fresh.receiveAll m fcs bs = .ok r ∧
      r.taken = [{ s with key := 0 }] ∧ ([s, s'].foldl Receiver.take .fresh).taken = [s', s] := by
  obtain ⟨bs, h1, h2⟩ := c90_exact h hh m fcs buf [s, s'] (by simpa using ⟨hs, hs'⟩)
  have hpos : 0 < s'.number := Nat.pos_of_ne_zero hn
  have hpos' : 0 < s.number := by omega
  refine ⟨bs, _, h1, h2 _, ?_, ?_⟩
  · simp [Receiver.take, Receiver.fresh, hpos', Nat.not_lt.2 hle]
  · simp [Receiver.take, Receiver.fresh, hpos', hpos, Ne.symm hk]

/-- Violation: anyone can stop the receiver.  A data frame that says to be encrypted and has too little in it for header and
MIC, or whose header lacks the extended IV flag, makes it panic. -/
theorem c90_receiver_panics (h : DataFrameHeader) (hv : ValidData h) (hc : HeaderConsistent h)
    (hs : payloadSubtype h.subtype) (hp : h.fcf_flags.protected_ = true) (m : MicState) (fcs : Bool) (p : Bytes)
    (hbad : p.length < 8 + slack + m.micLength ∨ extIv p = false) (r : Receiver) :
    r.receive m fcs (withFcs fcs (dataFrameWire h p)) = .panic := by
  obtain ⟨h1, h2⟩ := c65_data ⟨h, some p⟩ hv hc ⟨fun _ => hs, fun _ => rfl⟩ id [] [] (fun _ ha => by cases ha)
  have hm : matchFrames (withFcs fcs (dataFrameWire h p)) (if fcs then some true else none)
      [armOf dataFrameKind readDataFrame id] = .ok (0, ⟨h, some p⟩) := by
    cases fcs
    · exact h1
    · exact h2 true
  simp only [Receiver.receive, hm, c32_payload_panics ⟨h, some p⟩ m p rfl hp hbad]

/-! ## Concrete cases -/

namespace Spec

/-- A header of a data frame to an access point. -/
def sealedHeader : DataFrameHeader := ⟨.Data, ⟨1⟩, 0, Arr.zero 6, Arr.zero 6, Arr.zero 6, ⟨0⟩, none, none, none⟩

end Spec

omit [ScrollRule] [Crc32] in
/-- Two frames under key 0, of which the second is delivered first and again later; then frames under the keys 1 and 2,
of which the second is lost; then a frame that makes the receiver panic. -/
example (s : Bool) :
    letI : ScrollRule := ⟨s⟩
    letI : Crc32 := ⟨fun _ => 0⟩
    let a : Sealed := ⟨0, 1, [0x61]⟩
    let b : Sealed := ⟨0, 0x10002, [0x62, 0x62]⟩
    let run := fun l => do
      let bs ← sealAll sealedHeader .Short true (List.replicate 100 7) l
      let r ← Receiver.fresh.receiveAll .Short true bs
      pure r.taken
    run [a, b, a, b] = .ok [b, a] ∧ run [b, a, b] = .ok [b] ∧
    run [⟨1, 5, [1]⟩, ⟨2, 5, [2]⟩] = .ok [⟨0, 5, [1]⟩] ∧
    (Receiver.fresh.receive .Short true (withFcs true (dataFrameWire { sealedHeader with fcf_flags := ⟨0x41⟩ } [1, 2]))).map
      (·.taken) = .panic := by
  cases s <;> decide +kernel

omit [ScrollRule] [Crc32] in
/-- Header and frames meeting the hypotheses. -/
example : PlainHeader sealedHeader ∧
    ∀ x ∈ [(⟨0, 1, [0x61]⟩ : Sealed), ⟨1, 5, [1]⟩], x.Fits sealedHeader .Short true (List.replicate 100 7) := by
  refine ⟨⟨⟨by decide, DataFrameSubtype.canonical_fromBits 0⟩, ⟨by decide, by decide, by decide⟩, by decide, ?_⟩, ?_⟩
  · show ¬ CarriesAmsdu sealedHeader
    simp [CarriesAmsdu, sealedHeader]
  · intro x hx
    simp only [List.mem_cons, List.not_mem_nil, or_false] at hx
    rcases hx with rfl | rfl <;> exact ⟨by decide, by decide, by decide, by decide⟩

end Verif
