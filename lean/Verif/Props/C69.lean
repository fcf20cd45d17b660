import Verif.Props.C23
import Verif.Props.C26
import Verif.Props.C37
import Verif.Props.C49
import Verif.Props.C48
/-!
# C69: a frame that is received can be sent on unchanged

What a parser accepts is handed to the writer of the same type.  The claim is that the bytes come out as they
came in; the theorems say exactly when they do.
-/
namespace Verif

namespace Spec

/-- The first byte of a frame of this type: protocol version zero. -/
def firstByte (t : FrameType) : Byte := BitVec.ofNat 8 (4 * (typeNumbers t).1 + 16 * (typeNumbers t).2)

end Spec

open Spec

variable [ScrollRule] [Crc32]

omit [ScrollRule] in
private theorem withFcs_inj (fcs : Bool) {a b : Bytes} (h : withFcs fcs a = withFcs fcs b) : a = b := by
  cases fcs
  · exact h
  · exact (List.append_inj' h (by simp)).1

omit [ScrollRule] in
private theorem withFcs_head (fcs : Bool) (b : Byte) (l : Bytes) : (withFcs fcs (b :: l)).head? = some b := by
  cases fcs <;> simp [withFcs]

omit [Crc32] in
/-- Bodies are read to their end. -/
theorem Spec.BodyOf.bounded {β : Type → Type} {read : Reader (β Bytes)} {write : β Obj → Writer}
    {get : (ε : Type) → β ε → ε} {set : (ε δ : Type) → β ε → δ → β δ}
    {fixed : (ε : Type) → β ε → Bytes} {valid : β Bytes → Prop} {n : Nat} {need : Nat → Nat}
    {same : Bytes → Bytes → Prop} (hB : BodyOf read write get set fixed valid n need same) : Bounded read := by
  intro inp b k h
  obtain ⟨_, _, _, _, h, _⟩ := hB.parse inp b k h
  omega

/-- The common part for management frames. -/
private theorem forward {β : Type} (r : Reader β) (hbr : Bounded r) (s : ManagementFrameSubtype)
    (hs : ValidSubtype s) (fcs : Bool) (inp : Bytes) (h : ManagementFrameHeader) (b : β) (k : Nat)
    (hr : readMgmtFrame r fcs inp = .ok ((h, b), k)) (w : Writer) (body' : Bytes) (m : Nat)
    (hw : Emits w body' m) (hl : ∀ body k, r body = .ok (b, k) → body'.length = body.length) :
    ∃ body k' fcsBytes, inp.drop (2 + (mgmtHeaderWire h).length) = body ++ fcsBytes ∧
      r body = .ok (b, k') ∧
    ∃ size, ∀ buf : Bytes, size ≤ buf.length → ∃ out,
      writeMgmtFrame s h w fcs buf = .ok (out ++ buf.drop out.length, out.length) ∧
      out.length = inp.length ∧
      (out = inp ↔ inp.head? = some (firstByte (.Management s)) ∧ body' = body) := by
  obtain ⟨b0, body, k', rfl, _, _, hbody, _⟩ := c23_parse r hbr fcs inp h b k hr
  have h1 : ∀ l : Bytes, (b0 :: h.fcf_flags.bits :: (mgmtHeaderWire h ++ l)).drop
      (2 + (mgmtHeaderWire h).length) = l := by
    intro l
    rw [← List.drop_drop]
    exact List.drop_left
  refine ⟨body, k', if fcs then toLE (Crc32.hash (b0 :: h.fcf_flags.bits :: (mgmtHeaderWire h ++ body))) else [],
    ?_, hbody, _, fun buf hbuf => ⟨_, (c23_write s hs h w body' m hw fcs).ok buf hbuf, ?_, ?_⟩⟩
  · cases fcs
    · simp only [withFcs, Bool.false_eq_true, if_false, List.append_nil, h1]
    · simp only [withFcs, if_true, List.cons_append, List.append_assoc, h1]
  · have := hl _ _ hbody
    cases fcs <;> simp [withFcs, mgmtFrameWire, frameStart, this]
  · rw [withFcs_head]
    constructor
    · intro e
      have := withFcs_inj fcs e
      simp only [mgmtFrameWire, frameStart, List.cons_append, List.cons.injEq, List.nil_append,
        true_and, List.append_cancel_left_eq] at this
      rw [← this.1]; exact ⟨rfl, this.2⟩
    · rintro ⟨e, rfl⟩
      simp only [Option.some.injEq] at e
      rw [e]
      rfl

/-- A management frame whose body keeps its fixed fields (all but those with an association ID): the frame
that is sent is the frame that was received, check sequence included, exactly if that has version zero and
the subtype it is sent under. -/
theorem c69_mgmt {β : Type → Type} {read : Reader (β Bytes)} {write : β Obj → Writer}
    {get : (ε : Type) → β ε → ε} {set : (ε δ : Type) → β ε → δ → β δ}
    {fixed : (ε : Type) → β ε → Bytes} {valid : β Bytes → Prop} {n : Nat} {need : Nat → Nat}
    (hB : BodyOf read write get set fixed valid n need Eq)
    (s : ManagementFrameSubtype) (hs : ValidSubtype s) (fcs : Bool) (inp : Bytes)
    (h : ManagementFrameHeader) (b : β Bytes) (k : Nat)
    (hr : readMgmtFrame read fcs inp = .ok ((h, b), k))
    (b' : β Obj) (hb' : set _ _ b' (get _ b) = b) (m : Nat) (he : Emits (get _ b').write (get _ b) m) :
    ∃ size, ∀ buf : Bytes, size ≤ buf.length → ∃ out,
      writeMgmtFrame s h (write b') fcs buf = .ok (out ++ buf.drop out.length, out.length) ∧
      out.length = inp.length ∧
      (out = inp ↔ inp.head? = some (firstByte (.Management s))) := by
  have hparse : ∀ body k, read body = .ok (b, k) → fixed _ b' ++ get _ b = body := by
    intro body k hb
    obtain ⟨f, rfl, _, hsame, _, _⟩ := hB.parse _ _ _ hb
    rw [hsame, ← hB.fixed_set b' (get _ b), hb']
  obtain ⟨body, k', _, _, hb, size, hsize⟩ := forward read hB.bounded s hs fcs inp h b k hr _ _ _
    (hB.writes b' _ m he) (fun body k h => by rw [hparse body k h])
  refine ⟨size, fun buf hbuf => ?_⟩
  obtain ⟨out, h1, h2, h3⟩ := hsize buf hbuf
  exact ⟨out, h1, h2, by rw [h3]; simp [hparse body k' hb]⟩

omit [ScrollRule] [Crc32] in
/-- The association ID in a received body with the two bytes at offset four. -/
private theorem aid_same {f g els : Bytes} (hf : f.length = 6) (hs : SameAid 4 f g) (rest : Bytes) :
    g ++ els = f ++ els ↔ 0xc000 ≤ (fromLE 16 (((f ++ els) ++ rest).drop 4)).toNat := by
  obtain ⟨h1, h2, h3⟩ := hs
  match f, hf with
  | [f0, f1, f2, f3, x, y], _ =>
    match g, h2 with
    | [g0, g1, g2, g3, u, v], _ =>
      simp only [List.take_succ_cons, List.take_zero, List.cons.injEq, and_true] at h1
      obtain ⟨rfl, rfl, rfl, rfl⟩ := h1
      have hx := x.isLt
      have hy := y.isLt
      have hu := u.isLt
      have hv := v.isLt
      simp only [List.drop_succ_cons, List.drop_zero, fromLE, leNat, BitVec.toNat_ofNat, List.cons_append,
        List.nil_append] at h3 ⊢
      simp only [List.cons.injEq, true_and, and_true]
      constructor
      · rintro ⟨rfl, rfl⟩
        omega
      · intro h
        constructor
        · apply BitVec.eq_of_toNat_eq; omega
        · apply BitVec.eq_of_toNat_eq; omega

/-- A mesh peering confirm comes out as it came in exactly if in addition the association ID had its two top
bits set, as the standard requires. -/
theorem c69_mesh_peering_confirm (s : ManagementFrameSubtype) (hs : ValidSubtype s) (fcs : Bool) (inp : Bytes)
    (h : ManagementFrameHeader) (b : MeshPeeringConfirmBody Bytes) (k : Nat)
    (hr : readMgmtFrame readMeshPeeringConfirm fcs inp = .ok ((h, b), k)) :
    ∃ size, ∀ buf : Bytes, size ≤ buf.length → ∃ out,
      writeMgmtFrame s h (writeMeshPeeringConfirm { b with elements := bytesObj b.elements }) fcs buf =
        .ok (out ++ buf.drop out.length, out.length) ∧
      out.length = inp.length ∧
      (out = inp ↔ inp.head? = some (firstByte (.Management s)) ∧
        0xc000 ≤ (fromLE 16 (inp.drop (2 + (mgmtHeaderWire h).length + 4))).toNat) := by
  have hB := c22_mesh_peering_confirm
  obtain ⟨body, k', t, ht, hb, size, hsize⟩ := forward _ hB.bounded s hs fcs inp h b k hr _ _ _
    (hB.writes { b with elements := bytesObj b.elements } _ _ (Emits.bytes b.elements)) (fun body k h => by
      obtain ⟨f, rfl, hf, _, _⟩ := hB.parse _ _ _ h
      simp [hf]; omega)
  refine ⟨size, fun buf hbuf => ?_⟩
  obtain ⟨out, h1, h2, h3⟩ := hsize buf hbuf
  refine ⟨out, h1, h2, ?_⟩
  obtain ⟨f, rfl, hf, hsame, _⟩ := hB.parse _ _ _ hb
  rw [h3, ← List.drop_drop, ht, ← aid_same hf hsame]

/-- An association response likewise; a response without association ID comes out as it came in. -/
theorem c69_association_response (s : ManagementFrameSubtype) (hs : ValidSubtype s) (fcs : Bool) (inp : Bytes)
    (h : ManagementFrameHeader) (b : AssociationResponseBody Bytes) (k : Nat)
    (hr : readMgmtFrame readAssociationResponse fcs inp = .ok ((h, b), k)) :
    ∃ size, ∀ buf : Bytes, size ≤ buf.length → ∃ out,
      writeMgmtFrame s h (writeAssociationResponse { b with elements := bytesObj b.elements }) fcs buf =
        .ok (out ++ buf.drop out.length, out.length) ∧
      out.length = inp.length ∧
      (out = inp ↔ inp.head? = some (firstByte (.Management s)) ∧ (b.association_id = none ∨
        0xc000 ≤ (fromLE 16 (inp.drop (2 + (mgmtHeaderWire h).length + 4))).toNat)) := by
  have hB := c22_association_response
  obtain ⟨body, k', t, ht, hb, size, hsize⟩ := forward _ hB.bounded s hs fcs inp h b k hr _ _ _
    (hB.writes { b with elements := bytesObj b.elements } _ _ (Emits.bytes b.elements)) (fun body k h => by
      obtain ⟨f, rfl, hf, _, _⟩ := hB.parse _ _ _ h
      simp [hf]; omega)
  refine ⟨size, fun buf hbuf => ?_⟩
  obtain ⟨out, h1, h2, h3⟩ := hsize buf hbuf
  refine ⟨out, h1, h2, ?_⟩
  obtain ⟨f, rfl, hf, hsame, _, _, hv⟩ := hB.parse _ _ _ hb
  rw [h3, ← List.drop_drop, ht]
  refine and_congr Iff.rfl ?_
  rcases hsame with hsame | hsame
  · refine ⟨fun _ => ?_, fun _ => by rw [hsame]⟩
    cases ha : b.association_id with
    | none => exact .inl rfl
    | some a =>
      refine .inr ((aid_same hf (els := b.elements) (g := f) ⟨rfl, rfl, ?_⟩ t).1 rfl)
      obtain ⟨h5, h6⟩ := hv a ha
      rw [hsame, ha]
      simp only [Option.map_some, Option.getD_some]
      rw [List.drop_left' (by simp), fromLE_toLE rfl]
      simp only [AssociationID.intoBits]
      omega
  · refine (aid_same hf hsame t).trans ⟨.inr, ?_⟩
    rintro (hn | h)
    · exfalso
      have := hsame.2.2
      rw [hn] at this
      rw [List.drop_left' (by simp)] at this
      simp only [Option.map_none, Option.getD_none] at this
      rw [fromLE_toLE rfl] at this
      simp at this
      omega
    · exact h

omit [Crc32] in
private theorem raw_body {body : Bytes} {b : RawActionBody} {k : Nat} (h : readRawAction body = .ok (b, k)) :
    body = b.category_code.intoBits :: b.payload ∧ k = 1 := by
  have := c48_raw_parse body
  cases body with
  | nil => obtain ⟨e, he⟩ := this; rw [he] at h; simp at h
  | cons c p =>
    obtain ⟨b', h1, rfl, rfl⟩ := this
    rw [h] at h1
    simp only [Res.ok.injEq, Prod.mk.injEq] at h1
    obtain ⟨rfl, rfl⟩ := h1
    exact ⟨rfl, rfl⟩

/-- Action frames of any category, taken as they are. -/
theorem c69_raw_action (s : ManagementFrameSubtype) (hs : ValidSubtype s) (fcs : Bool) (inp : Bytes)
    (h : ManagementFrameHeader) (b : RawActionBody) (k : Nat)
    (hr : readMgmtFrame readRawAction fcs inp = .ok ((h, b), k)) :
    ∃ size, ∀ buf : Bytes, size ≤ buf.length → ∃ out,
      writeMgmtFrame s h (writeRawAction b) fcs buf = .ok (out ++ buf.drop out.length, out.length) ∧
      out.length = inp.length ∧
      (out = inp ↔ inp.head? = some (firstByte (.Management s))) := by
  obtain ⟨body, k', _, _, hb, size, hsize⟩ := forward _ (fun inp b k h => by
      obtain ⟨rfl, rfl⟩ := raw_body h; simp) s hs fcs inp h b k hr _ _ _
    (c48_raw_write b) (fun body k h => by rw [(raw_body h).1])
  refine ⟨size, fun buf hbuf => ?_⟩
  obtain ⟨out, h1, h2, h3⟩ := hsize buf hbuf
  exact ⟨out, h1, h2, by rw [h3]; simp [(raw_body hb).1]⟩

/-- Vendor specific action frames. -/
theorem c69_vendor_action (s : ManagementFrameSubtype) (hs : ValidSubtype s) (fcs : Bool) (inp : Bytes)
    (h : ManagementFrameHeader) (b : VendorActionBody Bytes) (k : Nat)
    (hr : readMgmtFrame readVendorAction fcs inp = .ok ((h, b), k)) :
    ∃ size, ∀ buf : Bytes, size ≤ buf.length → ∃ out,
      writeMgmtFrame s h (writeVendorAction { b with payload := bytesObj b.payload }) fcs buf =
        .ok (out ++ buf.drop out.length, out.length) ∧
      out.length = inp.length ∧
      (out = inp ↔ inp.head? = some (firstByte (.Management s))) := by
  obtain ⟨body, k', _, _, hb, size, hsize⟩ := forward _ (fun inp b k h => by
      obtain ⟨rfl, rfl⟩ := c48_vendor_parse _ _ _ h; simp) s hs fcs inp h b k hr _ _ _
    (c48_vendor_write { b with payload := bytesObj b.payload } _ _ (Emits.bytes b.payload))
    (fun body k h => by rw [(c48_vendor_parse _ _ _ h).1])
  refine ⟨size, fun buf hbuf => ?_⟩
  obtain ⟨out, h1, h2, h3⟩ := hsize buf hbuf
  exact ⟨out, h1, h2, by rw [h3]; simp [(c48_vendor_parse _ _ _ hb).1]⟩

omit [ScrollRule] [Crc32] in
private theorem data_first (b0 : Byte) (s : DataFrameSubtype) (h1 : b0.toNat / 4 % 4 = 2)
    (h2 : b0.toNat / 16 = s.intoBits.toNat) : b0 = firstByte (.Data s) ↔ b0.toNat % 4 = 0 := by
  have := b0.isLt
  rw [firstByte, ← BitVec.toNat_inj]
  simp only [typeNumbers, BitVec.toNat_ofNat]
  omega

/-- A data frame comes out as it came in exactly if it has version zero and there is nothing after the header
when the subtype has no payload. -/
theorem c69_data (fcs : Bool) (inp : Bytes) (f : DataFrame Bytes) (n : Nat)
    (hr : readDataFrame fcs inp = .ok (f, n)) :
    ∃ size, ∀ buf : Bytes, size ≤ buf.length → ∃ out,
      writeDataFrame ⟨f.header, f.payload.map bytesObj⟩ fcs buf =
        .ok (out ++ buf.drop out.length, out.length) ∧
      (out = inp ↔ (∀ b ∈ inp.head?, b.toNat % 4 = 0) ∧
        (¬ payloadSubtype f.header.subtype → inp.length = f.header.lengthInBytes + if fcs then 4 else 0)) := by
  obtain ⟨b0, rest, rfl, h1, h2, hp, _, hv, _⟩ := c49_parse fcs inp f n hr
  have hw := c49_write ⟨f.header, f.payload.map bytesObj⟩ hv (f.payload.getD [])
    (match f.payload with | none => 0 | some p => max p.length slack) (by
      cases f.payload with
      | none => exact ⟨rfl, rfl⟩
      | some p => exact ⟨_, Emits.bytes p, rfl⟩) fcs
  refine ⟨_, fun buf hbuf => ⟨_, hw.ok buf hbuf, ?_⟩⟩
  rw [withFcs_head]
  have hd := data_first b0 f.header.subtype h1 h2
  have hrest : f.payload.getD [] = rest ↔ (¬ payloadSubtype f.header.subtype →
      (withFcs fcs (b0 :: f.header.fcf_flags.bits :: (dataHeaderWire f.header ++ rest))).length =
        f.header.lengthInBytes + if fcs then 4 else 0) := by
    rw [c27_length, hp]
    by_cases hs : payloadSubtype f.header.subtype
    · simp [hs]
    · simp only [hs, if_false, Option.getD_none, not_false_eq_true, true_imp_iff]
      cases fcs
      · simp only [withFcs]
        simp
        constructor
        · rintro rfl; simp; omega
        · intro h
          exact List.eq_nil_of_length_eq_zero (l := rest) (by omega)
      · simp only [withFcs]
        simp
        constructor
        · rintro rfl; simp; omega
        · intro h
          exact List.eq_nil_of_length_eq_zero (l := rest) (by omega)
  rw [← hrest]
  simp only [Option.mem_def, Option.some.injEq, forall_eq']
  rw [← hd]
  constructor
  · intro e
    have := withFcs_inj fcs e
    simp only [dataFrameWire, frameStart, List.cons_append, List.cons.injEq, List.nil_append,
      true_and, List.append_cancel_left_eq] at this
    exact ⟨this.1.symm, this.2⟩
  · rintro ⟨e, hr⟩
    rw [hr, e]
    rfl

omit [Crc32] in
/-- A control frame after its frame control field: exactly what was consumed is written. -/
theorem c69_control (s : ControlFrameSubtype) (g : FCFFlags) (inp : Bytes) (c : ControlFrame) (n : Nat)
    (hr : readControlFrame s g inp = .ok (c, n)) (buf : Bytes) (hb : max n slack ≤ buf.length) :
    writeControlFrame c buf = .ok (inp.take n ++ buf.drop n, n) := by
  obtain ⟨rest, rfl, rfl, _⟩ := c26_parse s g inp c n hr
  rw [List.take_left]
  exact (c26_write c).ok buf hb

omit [Crc32] in
/-- An EAPOL key frame comes out as it came in exactly if it has version 2, its reserved octets are zero and
nothing follows the key data in it. -/
theorem c69_eapol (akm : IEEE80211AkmType) (inp : Bytes) (f : EapolKeyFrame Bytes) (n : Nat)
    (hr : readEapolKeyFrame akm inp = .ok (f, n)) (buf : Bytes)
    (hb : 83 + f.key_mic.length + max f.key_data.length slack ≤ buf.length) :
    ∃ out, writeEapolKeyFrame { f with key_data := bytesObj f.key_data } buf =
        .ok (out ++ buf.drop out.length, out.length) ∧ out.length = n ∧
      (out = inp.take n ↔ inp.head? = some 2 ∧ (inp.drop 73).take 8 = List.replicate 8 0 ∧
        (fromBE 16 ((inp.drop 2).take 2)).toNat = n - 4) := by
  obtain ⟨v, L, res, extra, rest, _, _, hL, rfl, rfl⟩ := c37_parse akm inp f n hr
  have hw := (c37_write { f with key_data := bytesObj f.key_data } f.key_data _ (Emits.bytes f.key_data)).ok buf hb
  refine ⟨_, hw, ?_, ?_⟩
  · simp [eapolWire, eapolFields]; omega
  have h0 : ∀ l : Bytes, (v :: 3 :: (toBE L ++ l)).drop 2 = toBE L ++ l := fun l => rfl
  have h2 : ∀ l : Bytes, (toBE L ++ l).take 2 = toBE L := fun l => List.take_left' (by simp)
  have h73 : (v :: 3 :: (toBE L ++ (eapolFields f res.val ++ (f.key_mic ++
      (toBE (BitVec.ofNat 16 f.key_data.length) ++ (f.key_data ++ (extra ++ rest))))))).drop 73 =
      res.val ++ (f.key_mic ++
      (toBE (BitVec.ofNat 16 f.key_data.length) ++ (f.key_data ++ (extra ++ rest)))) := by
    rw [show 73 = 2 + (2 + (1 + (2 + (2 + (8 + (32 + (16 + 8))))))) from rfl, ← List.drop_drop, h0,
      ← List.drop_drop, List.drop_left' (by simp), ← List.drop_drop]
    simp only [eapolFields, List.cons_append, List.drop_succ_cons, List.drop_zero, List.append_assoc]
    rw [← List.drop_drop, List.drop_left' (by simp), ← List.drop_drop, List.drop_left' (by simp),
      ← List.drop_drop, List.drop_left' (by simp), ← List.drop_drop, List.drop_left' (by simp),
      ← List.drop_drop, List.drop_left' (by simp), List.drop_left' (by simp)]
  have h8 : ∀ l : Bytes, (res.val ++ l).take 8 = res.val := fun l => List.take_left' (by simp)
  have htake : (v :: 3 :: (toBE L ++ (eapolFields f res.val ++ (f.key_mic ++
      (toBE (BitVec.ofNat 16 f.key_data.length) ++ (f.key_data ++ (extra ++ rest))))))).take
        (83 + f.key_mic.length + f.key_data.length) =
      v :: 3 :: (toBE L ++ (eapolFields f res.val ++ (f.key_mic ++
      (toBE (BitVec.ofNat 16 f.key_data.length) ++ f.key_data)))) := by
    rw [← List.append_assoc f.key_data, ← List.append_assoc (toBE _) (f.key_data ++ extra)]
    have : ∀ A B : Bytes, A.length = 83 + f.key_mic.length + f.key_data.length →
        (A ++ B).take (83 + f.key_mic.length + f.key_data.length) = A := fun A B h => by
      rw [← h]; exact List.take_left
    have hx := this (v :: 3 :: (toBE L ++ (eapolFields f res.val ++ (f.key_mic ++
      (toBE (BitVec.ofNat 16 f.key_data.length) ++ f.key_data))))) (extra ++ rest) (by
        simp [eapolFields]; omega)
    simpa using hx
  rw [htake, h0, h2, h73, h8, fromBE_toBE rfl, hL]
  have hLt := L.isLt
  have hz : (Arr.zero 8).val = List.replicate 8 (0 : Byte) := rfl
  simp only [eapolWire, eapolFields, hz, List.head?_cons, Option.some.injEq, List.cons.injEq, true_and]
  constructor
  · rintro ⟨h1, h3⟩
    obtain ⟨h4, h5⟩ := List.append_inj h3 (by simp)
    have h6 := congrArg (fromBE 16) h4
    rw [fromBE_toBE rfl, fromBE_toBE rfl] at h6
    have h7 := congrArg BitVec.toNat h6
    rw [hL] at h7
    simp only [BitVec.toNat_ofNat] at h7
    simp only [List.cons_append, List.append_assoc, List.cons.injEq, List.append_cancel_left_eq, true_and] at h5
    refine ⟨h1.symm, (List.append_inj h5 (by simp)).1.symm, ?_⟩
    omega
  · rintro ⟨rfl, h1, h3⟩
    rw [h1]
    have : L = BitVec.ofNat 16 (79 + f.key_mic.length + f.key_data.length) := by
      apply BitVec.eq_of_toNat_eq
      simp only [BitVec.toNat_ofNat]
      omega
    rw [this]
    exact ⟨rfl, rfl⟩

/-! ## Frames that do not come out as they came in -/

/-- The frame for the following: a plain data frame with this first byte and these bytes after the header. -/
private def dataExample (b0 : Byte) (rest : Bytes) : Bytes :=
  [b0, 1, 2, 1, 1, 1, 1, 1, 1, 1, 2, 2, 2, 2, 2, 2, 3, 3, 3, 3, 3, 3, 0x30, 0] ++ rest

/-- What is sent for a received data frame. -/
private def sentOn (inp : Bytes) : Res Bytes :=
  match readDataFrame false inp with
  | .ok (f, _) =>
    (writeDataFrame ⟨f.header, f.payload.map bytesObj⟩ false (List.replicate 60 0)).map fun (out, n) => out.take n
  | .err e => .err e
  | .panic => .panic

omit [ScrollRule] [Crc32] in
/-- Violation: a data frame of another protocol version than zero is accepted (the standard has it discarded)
and comes out with version zero; whatever follows the header of a Null frame is lost. -/
theorem c69_data_changed (s : Bool) : letI : ScrollRule := ⟨s⟩
    let _ : Crc32 := ⟨fun bs => BitVec.ofNat 32 bs.length⟩
    sentOn (dataExample 0x08 [7, 8]) = .ok (dataExample 0x08 [7, 8]) ∧
    sentOn (dataExample 0x09 [7, 8]) = .ok (dataExample 0x08 [7, 8]) ∧
    sentOn (dataExample 0x48 [7, 8]) = .ok (dataExample 0x48 []) := by
  cases s <;> decide +kernel

omit [Crc32] in
/-- Violation: no EAPOL key frame of another version than 2 comes out as it came in; version 1 is common and
accepted. -/
theorem c69_eapol_version (akm : IEEE80211AkmType) (v : Byte) (hv : v ≠ 2) (rest : Bytes) (f : EapolKeyFrame Bytes)
    (n : Nat) (hr : readEapolKeyFrame akm (v :: rest) = .ok (f, n)) (buf : Bytes)
    (hb : 83 + f.key_mic.length + max f.key_data.length slack ≤ buf.length) :
    ∃ out k, writeEapolKeyFrame { f with key_data := bytesObj f.key_data } buf = .ok (out, k) ∧
      out.take k ≠ (v :: rest).take n := by
  obtain ⟨out, h1, h2, h3⟩ := c69_eapol akm _ f n hr buf hb
  refine ⟨_, _, h1, ?_⟩
  rw [List.take_left]
  intro h
  have := (h3.1 h).1
  simp only [List.head?_cons, Option.some.injEq] at this
  exact hv this

/-- A management frame for the following: with this first byte and this body. -/
private def mgmtExample (b0 : Byte) (body : Bytes) : Bytes :=
  [b0, 8, 2, 1, 1, 1, 1, 1, 1, 1, 2, 2, 2, 2, 2, 2, 3, 3, 3, 3, 3, 3, 0x30, 0] ++ body

/-- What is sent for a received frame by the disassociation type. -/
private def sentOnDisassociation (inp : Bytes) : Res Bytes :=
  match readMgmtFrame readDisassociation false inp with
  | .ok ((h, b), _) =>
    (writeMgmtFrame .Disassociation h (writeDisassociation ⟨b.reason, bytesObj b.elements⟩) false
      (List.replicate 60 0)).map fun (out, n) => out.take n
  | .err e => .err e
  | .panic => .panic

omit [ScrollRule] [Crc32] in
/-- Violation: the type for disassociation frames accepts a deauthentication frame and sends a disassociation
frame; a protocol version other than zero is lost. -/
theorem c69_mgmt_changed (s : Bool) : letI : ScrollRule := ⟨s⟩
    let _ : Crc32 := ⟨fun bs => BitVec.ofNat 32 bs.length⟩
    sentOnDisassociation (mgmtExample 0xa0 [3, 0, 221, 3, 1, 2, 3]) =
      .ok (mgmtExample 0xa0 [3, 0, 221, 3, 1, 2, 3]) ∧
    sentOnDisassociation (mgmtExample 0xc0 [3, 0, 221, 3, 1, 2, 3]) =
      .ok (mgmtExample 0xa0 [3, 0, 221, 3, 1, 2, 3]) ∧
    sentOnDisassociation (mgmtExample 0xa2 [3, 0, 221, 3, 1, 2, 3]) =
      .ok (mgmtExample 0xa0 [3, 0, 221, 3, 1, 2, 3]) := by
  cases s <;> decide +kernel

/-- What is sent for a received association response. -/
private def sentOnResponse (inp : Bytes) : Res Bytes :=
  match readMgmtFrame readAssociationResponse false inp with
  | .ok ((h, b), _) =>
    (writeMgmtFrame .AssociationResponse h (writeAssociationResponse { b with elements := bytesObj b.elements })
      false (List.replicate 60 0)).map fun (out, n) => out.take n
  | .err e => .err e
  | .panic => .panic

omit [ScrollRule] [Crc32] in
/-- Violation: an association response whose association ID has a clear top bit comes out with it set. -/
theorem c69_aid_changed (s : Bool) : letI : ScrollRule := ⟨s⟩
    let _ : Crc32 := ⟨fun bs => BitVec.ofNat 32 bs.length⟩
    sentOnResponse (mgmtExample 0x10 [1, 0, 0, 0, 5, 0xc0, 221, 3, 1, 2, 3]) =
      .ok (mgmtExample 0x10 [1, 0, 0, 0, 5, 0xc0, 221, 3, 1, 2, 3]) ∧
    sentOnResponse (mgmtExample 0x10 [1, 0, 0, 0, 5, 0, 221, 3, 1, 2, 3]) =
      .ok (mgmtExample 0x10 [1, 0, 0, 0, 5, 0xc0, 221, 3, 1, 2, 3]) := by
  cases s <;> decide +kernel

/-! ## Concrete cases -/

/-- The hypotheses of `c69_mgmt` hold of every disassociation frame as it is received. -/
example (fcs : Bool) (inp : Bytes) (h : ManagementFrameHeader) (b : ReasonBody Bytes) (k : Nat)
    (hr : readMgmtFrame readDisassociation fcs inp = .ok ((h, b), k)) :
    ∃ size, ∀ buf : Bytes, size ≤ buf.length → ∃ out,
      writeMgmtFrame .Disassociation h (writeDisassociation ⟨b.reason, bytesObj b.elements⟩) fcs buf =
        .ok (out ++ buf.drop out.length, out.length) ∧
      out.length = inp.length ∧ (out = inp ↔ inp.head? = some 0xa0) :=
  c69_mgmt c22_disassociation .Disassociation ⟨by decide, ManagementFrameSubtype.canonical_fromBits 10⟩ fcs inp h b k hr ⟨b.reason, bytesObj b.elements⟩ rfl _
    (Emits.bytes b.elements)

/-- An EAPOL key frame as it is received: with this version and these reserved octets. -/
private def keyExample (v r : Byte) : Bytes :=
  [v, 3, 0, 98, 2, 3, 0x0a, 1, 2, 1, 2, 3, 4, 5, 6, 7, 8] ++ List.replicate 56 0x11 ++ List.replicate 8 r ++
    List.replicate 16 0xab ++ [0, 3, 1, 2, 3]

private def sentOnKey (inp : Bytes) : Res Bytes :=
  match readEapolKeyFrame .Psk inp with
  | .ok (f, _) =>
    (writeEapolKeyFrame { f with key_data := bytesObj f.key_data } (List.replicate 110 0)).map
      fun (out, n) => out.take n
  | .err e => .err e
  | .panic => .panic

omit [ScrollRule] [Crc32] in
example (s : Bool) : letI : ScrollRule := ⟨s⟩
    sentOnKey (keyExample 2 0) = .ok (keyExample 2 0) ∧
    sentOnKey (keyExample 1 0) = .ok (keyExample 2 0) ∧
    sentOnKey (keyExample 2 9) = .ok (keyExample 2 0) := by
  cases s <;> decide +kernel

omit [Crc32] in
/-- An RTS frame followed by other bytes. -/
example : let inp : Bytes := [2, 1, 1, 2, 3, 4, 5, 6, 7, 8, 9, 10, 11, 12, 99, 98]
    (readControlFrame .RTS ⟨0⟩ inp).bind (fun (c, n) => (writeControlFrame c (List.replicate 15 0xff)).map
      fun (out, k) => (n, out, k)) = .ok (14, inp.take 14 ++ [0xff], 14) := by
  cases ‹ScrollRule› with | mk s => cases s <;> decide +kernel

end Verif
