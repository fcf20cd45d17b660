import Verif.Props.C33
import Verif.Props.C93
/-!
# C96: messages protected by Michael

TKIP protects a message with the code of Michael over destination, source, priority and data (12.5.2.3.2); the code goes
after the data, and message and code are sent, possibly in pieces.  The receiver computes the code from the addresses in the
frame.  Encryption, which comes in between, is left out.  The programs are not in the crate; they are written here with its
functions.
-/
namespace Verif

namespace Spec

/-- What goes before the data when the code is computed: destination, source, priority, and three zeros. -/
def michaelPrefix (da sa : Mac) (priority : Byte) : Bytes := da.val ++ (sa.val ++ [priority, 0, 0, 0])

/-- The code by the standard. -/
def codeOf (key : Bytes) (da sa : Mac) (priority : Byte) (data : Bytes) : Bytes :=
  michaelBytes key (michaelPrefix da sa priority ++ data)

/-- One is got from the other by a change in one word: of four octets at a multiple of four, or of what is after the last
such multiple. -/
def OneWord (x y : Bytes) : Prop :=
  ∃ pre w w' post, x = pre ++ (w ++ post) ∧ y = pre ++ (w' ++ post) ∧ pre.length % 4 = 0 ∧ w ≠ w' ∧
    (w.length = 4 ∧ w'.length = 4 ∨ w.length < 4 ∧ w'.length < 4 ∧ post = [])

/-- Data with its code, by the function of the crate. -/
def protect (key : BitVec 64) (da sa : Mac) (priority : Byte) (data : Bytes) : Res Bytes := do
  let mic ← michael key (michaelPrefix da sa priority ++ data)
  pure (data ++ toBE mic)

/-- The data, if the code is right. -/
def unprotect (key : BitVec 64) (da sa : Mac) (priority : Byte) (content : Bytes) : Res (Option Bytes) :=
  if content.length < 8 then .ok none else do
    let data := content.take (content.length - 8)
    let mic ← michael key (michaelPrefix da sa priority ++ data)
    pure (if toBE mic = content.drop (content.length - 8) then some data else none)

/-- The priority is the traffic identifier in the QoS field, or zero. -/
def priorityOf (qos : Option (Arr 2)) : Byte :=
  match qos with
  | some q => q.val.getD 0 0 &&& 0x0f
  | none => 0

variable [ScrollRule] [Crc32]

/-- A message with its code is sent in one frame. -/
def sendProtected (key : BitVec 64) (h : DataFrameHeader) (data : Bytes) (fcs : Bool) (buf : Bytes) : Res Bytes :=
  match h.destinationAddress, h.sourceAddress with
  | some da, some sa => do
    let content ← protect key da sa (priorityOf h.qos) data
    let (out, n) ← writeDataFrame ⟨h, some (bytesObj content)⟩ fcs buf
    pure (out.take n)
  | _, _ => .err .badInput

/-- The message in a frame, with destination and source, if the code is right. -/
def receiveProtected (key : BitVec 64) (fcs : Bool) (bytes : Bytes) : Res (Option (Mac × Mac × Bytes)) :=
  match matchFrames bytes (if fcs then some true else none) [armOf dataFrameKind readDataFrame id] with
  | .panic => .panic
  | .err _ => .ok none
  | .ok (_, f) =>
    match f.header.destinationAddress, f.header.sourceAddress, f.payload with
    | some da, some sa, some content => do
      let data ← unprotect key da sa (priorityOf f.header.qos) content
      pure (data.map fun d => (da, sa, d))
    | _, _, _ => .ok none

end Spec

open Spec

/-! ## Code and message -/

/-- The code that goes after the data is that of the standard. -/
theorem c96_protect (key : BitVec 64) (da sa : Mac) (priority : Byte) (data : Bytes) :
    protect key da sa priority data = .ok (data ++ codeOf (toBE key) da sa priority data) := by
  obtain ⟨mic, h1, h2⟩ := c33_michael key (michaelPrefix da sa priority ++ data)
  simp only [protect, h1, Res.ok_bind, codeOf, ← h2]
  rfl

private theorem michaelBytes_length (key m : Bytes) : (michaelBytes key m).length = 8 := by
  simp [michaelBytes]

/-- Exactly the right code is accepted; nothing panics. -/
theorem c96_unprotect_iff (key : BitVec 64) (da sa : Mac) (priority : Byte) (content data : Bytes) :
    (unprotect key da sa priority content = .ok (some data) ↔
      content = data ++ codeOf (toBE key) da sa priority data) ∧
    ((∀ d, content ≠ d ++ codeOf (toBE key) da sa priority d) → unprotect key da sa priority content = .ok none) := by
  have key' : ∃ o, unprotect key da sa priority content = .ok o ∧
      (∀ d, o = some d ↔ content = d ++ codeOf (toBE key) da sa priority d) := by
    unfold unprotect
    split
    · rename_i h
      refine ⟨none, rfl, fun d => ⟨fun h => by simp at h, fun h' => ?_⟩⟩
      rw [h', List.length_append, codeOf, michaelBytes_length] at h
      omega
    · rename_i h
      obtain ⟨mic, h1, h2⟩ := c33_michael key (michaelPrefix da sa priority ++ content.take (content.length - 8))
      refine ⟨_, by simp only [h1, Res.ok_bind]; rfl, fun d => ?_⟩
      rw [h2]
      constructor
      · intro hd
        split at hd
        · rename_i he
          simp only [Option.some.injEq] at hd
          rw [codeOf, ← hd, he, List.take_append_drop]
        · cases hd
      · intro hd
        have hl : content.length - 8 = d.length := by
          rw [hd, List.length_append, codeOf, michaelBytes_length]
          omega
        have ht : content.take (content.length - 8) = d := by
          rw [hl, hd, List.take_left]
        have hr : content.drop (content.length - 8) = codeOf (toBE key) da sa priority d := by
          have := congrArg (List.drop d.length) hd
          rw [List.drop_left] at this
          rw [hl]
          exact this
        rw [ht, hr, codeOf, if_pos rfl]
  obtain ⟨o, h1, h2⟩ := key'
  rw [h1]
  refine ⟨?_, fun h => ?_⟩
  · rw [Res.ok.injEq]
    exact h2 data
  · cases o with
    | none => rfl
    | some d => exact absurd ((h2 d).1 rfl) (h d)

/-- A change within one word of addresses, priority and data is always noticed, whatever the key. -/
theorem c96_changed (key : BitVec 64) (da sa da' sa' : Mac) (priority priority' : Byte) (data data' : Bytes)
    (h : OneWord (michaelPrefix da sa priority ++ data) (michaelPrefix da' sa' priority' ++ data')) :
    unprotect key da' sa' priority' (data' ++ codeOf (toBE key) da sa priority data) = .ok none := by
  refine (c96_unprotect_iff key da' sa' priority' _ []).2 fun d hd => ?_
  obtain ⟨rfl, hm⟩ := List.append_inj' hd (by simp [codeOf, michaelBytes_length])
  obtain ⟨pre, w, w', post, h1, h2, h3, h4, h5⟩ := h
  refine c33_one_word key pre w w' post h3 h4 h5 ?_
  obtain ⟨a, a1, a2⟩ := c33_michael key (pre ++ (w ++ post))
  obtain ⟨b, b1, b2⟩ := c33_michael key (pre ++ (w' ++ post))
  rw [codeOf, codeOf, h1, h2, ← a2, ← b2] at hm
  rw [a1, b1, ← fromBE_toBE rfl a, ← fromBE_toBE rfl b, hm]

/-- A message under one key is refused under every other. -/
theorem c96_other_key (key key' : BitVec 64) (hk : key ≠ key') (da sa : Mac) (priority : Byte) (data : Bytes) :
    unprotect key' da sa priority (data ++ codeOf (toBE key) da sa priority data) = .ok none := by
  refine (c96_unprotect_iff key' da sa priority _ []).2 fun d hd => ?_
  obtain ⟨rfl, hm⟩ := List.append_inj' hd (by simp [codeOf, michaelBytes_length])
  refine hk (c33_key_injective key key' (michaelPrefix da sa priority ++ data) ?_)
  obtain ⟨a, a1, a2⟩ := c33_michael key (michaelPrefix da sa priority ++ data)
  obtain ⟨b, b1, b2⟩ := c33_michael key' (michaelPrefix da sa priority ++ data)
  rw [codeOf, codeOf, ← a2, ← b2] at hm
  rw [a1, b1, ← fromBE_toBE rfl a, ← fromBE_toBE rfl b, hm]

/-- A wrong code is refused. -/
theorem c96_code_checked (key : BitVec 64) (da sa : Mac) (priority : Byte) (data code : Bytes) (hl : code.length = 8)
    (hc : code ≠ codeOf (toBE key) da sa priority data) : unprotect key da sa priority (data ++ code) = .ok none := by
  refine (c96_unprotect_iff key da sa priority _ []).2 fun d hd => ?_
  obtain ⟨rfl, hm⟩ := List.append_inj' hd (by simp [codeOf, michaelBytes_length, hl])
  exact hc hm

/-- Changes in one word: another priority; other first four octets, or other last two octets, of the destination; other first
two, or last four, of the source. -/
theorem c96_one_word (da sa : Mac) (priority priority' : Byte) (data : Bytes) (x x' : Arr 4) (y y' : Arr 2) :
    (priority ≠ priority' → OneWord (michaelPrefix da sa priority ++ data) (michaelPrefix da sa priority' ++ data)) ∧
    (x ≠ x' → OneWord (michaelPrefix ⟨x.val ++ y.val, by simp⟩ sa priority ++ data)
      (michaelPrefix ⟨x'.val ++ y.val, by simp⟩ sa priority ++ data)) ∧
    (y ≠ y' → OneWord (michaelPrefix ⟨x.val ++ y.val, by simp⟩ sa priority ++ data)
      (michaelPrefix ⟨x.val ++ y'.val, by simp⟩ sa priority ++ data)) ∧
    (y ≠ y' → OneWord (michaelPrefix da ⟨y.val ++ x.val, by simp⟩ priority ++ data)
      (michaelPrefix da ⟨y'.val ++ x.val, by simp⟩ priority ++ data)) ∧
    (x ≠ x' → OneWord (michaelPrefix da ⟨y.val ++ x.val, by simp⟩ priority ++ data)
      (michaelPrefix da ⟨y.val ++ x'.val, by simp⟩ priority ++ data)) := by
  refine ⟨fun h => ?_, fun h => ?_, fun h => ?_, fun h => ?_, fun h => ?_⟩
  · exact ⟨da.val ++ sa.val, [priority, 0, 0, 0], [priority', 0, 0, 0], data, by simp [michaelPrefix],
      by simp [michaelPrefix], by simp, by simpa using h, .inl ⟨rfl, rfl⟩⟩
  · exact ⟨[], x.val, x'.val, y.val ++ (sa.val ++ [priority, 0, 0, 0]) ++ data, by simp [michaelPrefix],
      by simp [michaelPrefix], rfl, fun he => h (Subtype.ext he), .inl ⟨by simp, by simp⟩⟩
  · refine ⟨x.val, y.val ++ sa.val.take 2, y'.val ++ sa.val.take 2, sa.val.drop 2 ++ [priority, 0, 0, 0] ++ data, ?_, ?_, by simp,
      fun he => h (Subtype.ext (List.append_cancel_right he)), .inl ⟨by simp, by simp⟩⟩
    all_goals
      have e : sa.val = sa.val.take 2 ++ sa.val.drop 2 := (List.take_append_drop 2 sa.val).symm
      generalize sa.val.take 2 = p at e
      generalize sa.val.drop 2 = q at e
      simp [michaelPrefix, e]
  · refine ⟨da.val.take 4, da.val.drop 4 ++ y.val, da.val.drop 4 ++ y'.val, x.val ++ [priority, 0, 0, 0] ++ data, ?_, ?_,
      by simp, fun he => h (Subtype.ext (List.append_cancel_left he)), .inl ⟨by simp, by simp⟩⟩
    all_goals
      have e : da.val = da.val.take 4 ++ da.val.drop 4 := (List.take_append_drop 4 da.val).symm
      generalize da.val.take 4 = p at e
      generalize da.val.drop 4 = q at e
      simp [michaelPrefix, e]
  · exact ⟨da.val ++ y.val, x.val, x'.val, [priority, 0, 0, 0] ++ data, by simp [michaelPrefix],
      by simp [michaelPrefix], by simp, fun he => h (Subtype.ext he), .inl ⟨by simp, by simp⟩⟩

/-! ## Messages in frames -/

variable [ScrollRule] [Crc32]

/-- A header with addresses, for data. -/
structure Spec.MessageHeader (h : DataFrameHeader) (da sa : Mac) : Prop where
  valid : ValidData h
  consistent : HeaderConsistent h
  data : payloadSubtype h.subtype
  destination : h.destinationAddress = some da
  source : h.sourceAddress = some sa

/-- What the receiver makes of any contents in a frame. -/
private theorem receive_frame (key : BitVec 64) (h : DataFrameHeader) (da sa : Mac) (hh : MessageHeader h da sa)
    (content : Bytes) (fcs : Bool) (buf : Bytes)
    (hb : 3 + (dataHeaderWire h).length + content.length + (if fcs then 4 else 0) ≤ buf.length) :
    ∃ out n, writeDataFrame ⟨h, some (bytesObj content)⟩ fcs buf = .ok (out, n) ∧
      receiveProtected key fcs (out.take n) = (do
        let data ← unprotect key da sa (priorityOf h.qos) content
        pure (data.map fun d => (da, sa, d))) := by
  have hs := slack_le
  obtain ⟨out, n, c, g1, g2, g3⟩ := frame_arrives h hh.valid hh.consistent hh.data
    (bytesObj content) (· = content) _ (Emits.bytes content).writes fcs id [] [] (fun _ ha => by cases ha) buf
    (by omega)
  subst g2
  refine ⟨out, n, g1, ?_⟩
  have g3 : matchFrames (out.take n) (if fcs then some true else none) [armOf dataFrameKind readDataFrame id] =
    .ok (0, ⟨h, some c⟩) := g3
  simp only [receiveProtected, g3, hh.destination, hh.source]

/-- A message that is sent is received, with its destination and source. -/
theorem c96_received (key : BitVec 64) (h : DataFrameHeader) (da sa : Mac) (hh : MessageHeader h da sa) (data : Bytes)
    (fcs : Bool) (buf : Bytes)
    (hb : 11 + (dataHeaderWire h).length + data.length + (if fcs then 4 else 0) ≤ buf.length) :
    ∃ frame, sendProtected key h data fcs buf = .ok frame ∧ receiveProtected key fcs frame = .ok (some (da, sa, data)) := by
  obtain ⟨out, n, h1, h2⟩ := receive_frame key h da sa hh (data ++ codeOf (toBE key) da sa (priorityOf h.qos) data) fcs buf
    (by rw [List.length_append, codeOf, michaelBytes_length]; omega)
  refine ⟨out.take n, ?_, ?_⟩
  · simp only [sendProtected, hh.destination, hh.source, c96_protect, Res.ok_bind, h1]
    rfl
  · rw [h2, (c96_unprotect_iff key da sa (priorityOf h.qos) _ data).1.2 rfl]
    rfl

/-- If someone sends it on with another header and other data, which differ within one word as far as the code is concerned,
nothing is received. -/
theorem c96_forged (key : BitVec 64) (h h' : DataFrameHeader) (da sa da' sa' : Mac)
    (hh' : MessageHeader h' da' sa') (data data' : Bytes)
    (hw : OneWord (michaelPrefix da sa (priorityOf h.qos) ++ data) (michaelPrefix da' sa' (priorityOf h'.qos) ++ data'))
    (fcs : Bool) (buf : Bytes)
    (hb : 11 + (dataHeaderWire h').length + data'.length + (if fcs then 4 else 0) ≤ buf.length) :
    ∃ out n, writeDataFrame ⟨h', some (bytesObj (data' ++ codeOf (toBE key) da sa (priorityOf h.qos) data))⟩ fcs buf =
      .ok (out, n) ∧ receiveProtected key fcs (out.take n) = .ok none := by
  obtain ⟨out, n, h1, h2⟩ := receive_frame key h' da' sa' hh' (data' ++ codeOf (toBE key) da sa (priorityOf h.qos) data) fcs buf
    (by rw [List.length_append, codeOf, michaelBytes_length]; omega)
  refine ⟨out, n, h1, ?_⟩
  rw [h2, c96_changed key da sa da' sa' _ _ data data' hw]
  rfl

/-- Whatever bytes are received, what is taken for a message was in them, followed by the code of the standard over the
addresses that the frame has by the accessors (which are those of table 9-30, C28), its priority and the message. -/
theorem c96_sound (key : BitVec 64) (fcs : Bool) (bytes : Bytes) (da sa : Mac) (data : Bytes)
    (h : receiveProtected key fcs bytes = .ok (some (da, sa, data))) :
    ∃ frame f n, bytes = withFcs fcs frame ∧ readDataFrame false frame = .ok (f, n) ∧
      f.header.destinationAddress = some da ∧ f.header.sourceAddress = some sa ∧
      f.payload = some (data ++ codeOf (toBE key) da sa (priorityOf f.header.qos) data) := by
  unfold receiveProtected at h
  split at h
  · cases h
  · cases h
  · rename_i i f hm
    obtain ⟨frame, n, h1, h2⟩ := (match_data fcs bytes).2 i f hm
    refine ⟨frame, f, n, h1, h2, ?_⟩
    split at h
    · rename_i da' sa' content e1 e2 e3
      obtain ⟨x, h3, h4⟩ := Res.bind_eq_ok h
      simp only [pure, Res.ok.injEq] at h4
      cases x with
      | none => cases h4
      | some d =>
        simp only [Option.map_some, Option.some.injEq, Prod.mk.injEq] at h4
        obtain ⟨rfl, rfl, rfl⟩ := h4
        rw [e1, e2, e3, ← (c96_unprotect_iff key da' sa' _ content d).1.1 h3]
        exact ⟨rfl, rfl, rfl⟩
    · cases h

/-- The receiver panics only where a check sequence is expected in fewer than four bytes. -/
theorem c96_panics_iff (key : BitVec 64) (fcs : Bool) (bytes : Bytes) :
    receiveProtected key fcs bytes = .panic ↔ fcs = true ∧ bytes.length < 4 := by
  rw [← (match_data fcs bytes).1]
  unfold receiveProtected
  split
  · rename_i h
    simp [h]
  · rename_i h
    simp [h]
  · rename_i f h
    rw [h]
    simp only [reduceCtorEq, iff_false]
    split
    · rename_i da sa content _ _ _
      intro hp
      by_cases hx : ∃ d, content = d ++ codeOf (toBE key) da sa (priorityOf f.header.qos) d
      · obtain ⟨d, hd⟩ := hx
        rw [(c96_unprotect_iff key da sa _ content d).1.2 hd] at hp
        cases hp
      · rw [(c96_unprotect_iff key da sa _ content []).2 fun d hd => hx ⟨d, hd⟩] at hp
        cases hp
    · exact fun h => by cases h

/-- Messages in pieces: if every source sends its messages with their codes, in pieces that are repeated and mixed in any way
(C93), the receiver finds every code right, and each message once and in order. -/
theorem c96_pieces (key : BitVec 64) (header : Source → DataFrameHeader) (da sa : Source → Mac) (fcs : Bool) (buf : Bytes)
    (messages : Source → List (Parcel × Bytes))
    (hcode : ∀ s, ∀ m ∈ messages s, protect key (da s) (sa s) (BitVec.ofNat 8 (s.2.getD 0)) m.2 = .ok m.1.content)
    (hparts : ∀ s, ∀ m ∈ messages s, m.1.parts ≠ []) (hnum : ∀ s, NumbersMove ((messages s).map Prod.fst)) (air : List Piece)
    (hair : ∀ s, air.filter (·.source = s) = ((messages s).map Prod.fst).flatMap (Parcel.pieces s))
    (hh : ∀ p ∈ air, SourceHeader (header p.source) p.source) (hl : ∀ p ∈ air, p.Fits (header p.source) fcs buf) :
    ∃ bs j, sendPieces fcs buf header air = .ok bs ∧ Joiner.fresh.receiveAll fcs bs = .ok j ∧
      ∀ s, ((j.complete.filter (·.1 = s)).map fun x =>
        unprotect key (da s) (sa s) (BitVec.ofNat 8 (s.2.getD 0)) x.2).reverse =
          (messages s).map fun m => .ok (some m.2) := by
  obtain ⟨bs, j, h1, h2, h3⟩ := c93_joined header fcs buf (fun s => (messages s).map Prod.fst)
    (fun s m hm => by
      obtain ⟨x, hx, rfl⟩ := List.mem_map.1 hm
      exact hparts s x hx) hnum air hair hh hl
  refine ⟨bs, j, h1, h2, fun s => ?_⟩
  have h3 := congrArg (List.map (unprotect key (da s) (sa s) (BitVec.ofNat 8 (s.2.getD 0)))) (h3 s)
  rw [List.map_reverse, List.map_map, List.map_map, List.map_map] at h3
  refine Eq.trans (by rfl) (h3.trans ?_)
  refine List.map_congr_left fun m hm => ?_
  have := hcode s m hm
  rw [c96_protect, Res.ok.injEq] at this
  exact (c96_unprotect_iff key (da s) (sa s) _ _ m.2).1.2 this.symm

/-! ## Concrete cases -/

set_option synthInstance.maxSize 1024 in
omit [ScrollRule] [Crc32] in
/-- A message to an access point is received; with another priority, another first octet of the destination, or a changed
octet of the data it is not. -/
example (s : Bool) :
    letI : ScrollRule := ⟨s⟩
    letI : Crc32 := ⟨fun _ => 0⟩
    let h (d t : Byte) : DataFrameHeader := ⟨.QoSData, ⟨1⟩, 0, pieceMac 9, pieceMac 2, ⟨[d, 0, 0, 0, 0, 0], rfl⟩, ⟨0⟩, none,
      some ⟨[t, 0], rfl⟩, none⟩
    let send (x : DataFrameHeader) (c : Bytes) := (writeDataFrame ⟨x, some (bytesObj c)⟩ true (List.replicate 50 7)).map
      fun r => r.1.take r.2
    (do let f ← sendProtected 0x0102030405060708 (h 3 5) [1, 2, 3] true (List.replicate 50 7)
        receiveProtected 0x0102030405060708 true f) = .ok (some (⟨[3, 0, 0, 0, 0, 0], rfl⟩, pieceMac 2, [1, 2, 3])) ∧
    (do let c ← protect 0x0102030405060708 ⟨[3, 0, 0, 0, 0, 0], rfl⟩ (pieceMac 2) 5 [1, 2, 3]
        let f ← send (h 3 6) c
        let g ← send (h 4 5) c
        let k ← send (h 3 5) (c.set 0 7)
        pure (receiveProtected 0x0102030405060708 true f, receiveProtected 0x0102030405060708 true g,
          receiveProtected 0x0102030405060708 true k)) = .ok (.ok none, .ok none, .ok none) := by
  cases s <;> exact ⟨by decide +kernel, by decide +kernel⟩

omit [Crc32] in
/-- A header that meets the hypothesis. -/
example : MessageHeader ⟨.QoSData, ⟨1⟩, 0, pieceMac 9, pieceMac 2, pieceMac 3, ⟨0⟩, none, some ⟨[5, 0], rfl⟩, none⟩
    (pieceMac 3) (pieceMac 2) :=
  ⟨⟨by decide, DataFrameSubtype.canonical_fromBits 8⟩, ⟨by decide, by decide, by decide⟩, by decide, by decide, by decide⟩

/-- A message in two pieces, the second of which is the code, and is heard only when it is repeated, and then twice. -/
example (key : BitVec 64) : ∃ bs j,
    let code := codeOf (toBE key) (pieceMac 9) (pieceMac 3) 5 [1, 2, 3]
    sendPieces true (List.replicate 60 0xee) sourceHeader
      (Parcel.pieces sourceB ⟨7, [([1, 2, 3], false, 0), (code, true, 1)]⟩) = .ok bs ∧
    Joiner.fresh.receiveAll true bs = .ok j ∧
    ((j.complete.filter (·.1 = sourceB)).map fun x => unprotect key (pieceMac 9) (pieceMac 3) 5 x.2) =
      [.ok (some [1, 2, 3])] := by
  have hB : SourceHeader (sourceHeader sourceB) sourceB :=
    ⟨⟨by decide, DataFrameSubtype.canonical_fromBits 8⟩, ⟨by decide, by decide, by decide⟩, by decide, rfl, rfl⟩
  have hlen : (codeOf (toBE key) (pieceMac 9) (pieceMac 3) 5 [1, 2, 3]).length = 8 := michaelBytes_length _ _
  have hp := c96_protect key (pieceMac 9) (pieceMac 3) 5 [1, 2, 3]
  generalize codeOf (toBE key) (pieceMac 9) (pieceMac 3) 5 [1, 2, 3] = code at hlen hp
  have hsrc : ∀ p ∈ Parcel.pieces sourceB ⟨7, [([1, 2, 3], false, 0), (code, true, 1)]⟩,
      p.source = sourceB ∧ p.number = 7 ∧ p.index < 2 ∧ p.content.length ≤ 8 := by
    intro p hp
    simp only [Parcel.pieces, piecesFrom, List.replicate, List.nil_append, List.cons_append, List.mem_cons,
      List.not_mem_nil, or_false] at hp
    rcases hp with rfl | rfl | rfl <;> simp [hlen]
  obtain ⟨bs, j, h1, h2, h3⟩ := c96_pieces key sourceHeader (fun _ => pieceMac 9) (fun _ => pieceMac 3) true
    (List.replicate 60 0xee)
    (fun s => if s = sourceB then [(⟨7, [([1, 2, 3], false, 0), (code, true, 1)]⟩, [1, 2, 3])] else [])
    (by
      intro s m hm
      split at hm
      · rename_i hs
        subst hs
        obtain rfl := List.mem_singleton.1 hm
        exact hp.trans (by simp [Parcel.content])
      · cases hm)
    (by
      intro s m hm
      split at hm
      · obtain rfl := List.mem_singleton.1 hm
        simp
      · cases hm)
    (by intro s; split <;> trivial)
    (Parcel.pieces sourceB ⟨7, [([1, 2, 3], false, 0), (code, true, 1)]⟩)
    (by
      intro s
      by_cases hs : s = sourceB
      · subst hs
        rw [if_pos rfl, List.filter_eq_self.2 fun p hp => by simpa using (hsrc p hp).1]
        simp
      · rw [if_neg hs, List.filter_eq_nil_iff.2 fun p hp => by
          rw [(hsrc p hp).1]
          simpa using Ne.symm hs]
        rfl)
    (by
      intro p hp
      rw [(hsrc p hp).1]
      exact hB)
    (by
      intro p hp
      obtain ⟨e1, e2, e3, e4⟩ := hsrc p hp
      rw [e1]
      refine ⟨by omega, by omega, ?_⟩
      rw [show (dataHeaderWire (sourceHeader sourceB)).length = 24 by decide, List.length_replicate]
      simp only [if_true]
      omega)
  refine ⟨bs, j, h1, h2, ?_⟩
  have := h3 sourceB
  simp only [if_true, List.map_cons, List.map_nil] at this
  have := congrArg List.reverse this
  rw [List.reverse_reverse] at this
  exact this

end Verif
