import Verif.Lemmas.Fcf
import Verif.Lemmas.Rsn
import Verif.Props.C21
import Verif.Props.C22
import Verif.Model.Frames.Generic
/-!
# C23: management frames with and without FCS

The body is any reader and writer; `c23_round_trip_partial` instantiates them with the bodies of C22.
-/
namespace Verif

namespace Spec

/-- A management frame without check sequence. -/
def mgmtFrameWire (s : ManagementFrameSubtype) (h : ManagementFrameHeader) (body : Bytes) : Bytes :=
  frameStart (.Management s) h.fcf_flags ++ (mgmtHeaderWire h ++ body)

/-- The number of a subtype fits in four bits and is not written as unknown when it has a name. -/
def ValidSubtype (s : ManagementFrameSubtype) : Prop := ValidFrameType (.Management s)

end Spec

open Spec

variable [ScrollRule] [Crc32]

/-- The bytes written for a frame, and how large a buffer they need. -/
theorem c23_write (s : ManagementFrameSubtype) (hs : ValidSubtype s) (h : ManagementFrameHeader)
    (w : Writer) (body : Bytes) (m : Nat) (hw : Emits w body m) (fcs : Bool) :
    Emits (writeMgmtFrame s h w fcs) (withFcs fcs (mgmtFrameWire s h body))
      (max ((mgmtHeaderWire h).length + 2 + max m slack)
        ((mgmtFrameWire s h body).length + if fcs then 4 else 0)) := by
  obtain ⟨f, hf, hb, _, _⟩ := fcf_written (.Management s) hs h.fcf_flags
  have hp : WEmits (do
      let fcf ← Wr.lift (FrameControlField.withFrameType ⟨0⟩ (.Management s))
      Wr.gwrite (writeLE (fcf.withFcfFlags h.fcf_flags).bits)
      Wr.gwrite (writeMgmtHeader h)
      Wr.gwrite w : Wr Unit) () (mgmtFrameWire s h body)
      ((mgmtHeaderWire h).length + 2 + max m slack) := by
    apply WEmits.cast
    · apply WEmits.lift_bind hf
      apply WEmits.leI (hp := by decide)
      apply WEmits.seq (WEmits.gwrite_pos (c21_write h) (by simp [mgmtHeaderWire]; omega))
      exact WEmits.gwrite hw
    · simp [mgmtFrameWire, hb]
    · simp; omega
  have := Emits.withFcs hp fcs
  simp only [Wr.bind_assoc] at this
  exact this

omit [ScrollRule] in
/-- The check sequence adds four bytes. -/
theorem c23_fcs_length (frame : Bytes) :
    (withFcs true frame).length = (withFcs false frame).length + 4 := by
  simp [withFcs]

/-- Reading what was written, the check sequence included, returns the header and what the body's
parser makes of the body; it consumes the frame control field, the header and what that parser does. -/
theorem c23_read {β : Type} (s : ManagementFrameSubtype) (hs : ValidSubtype s)
    (h : ManagementFrameHeader) (hc : HtConsistent h) (r : Reader β) (body : Bytes) (b : β) (k : Nat)
    (hr : r body = .ok (b, k)) (hl : slack ≤ body.length) (fcs : Bool) :
    readMgmtFrame r fcs (withFcs fcs (mgmtFrameWire s h body)) =
      .ok ((h, b), 2 + ((mgmtHeaderWire h).length + k)) := by
  have key : readMgmtFrameBody r (mgmtFrameWire s h body) =
      .ok ((h, b), 2 + ((mgmtHeaderWire h).length + k)) := by
    have hsl := slack_le
    obtain ⟨f, hf, hb, ht, hg⟩ := fcf_written (.Management s) hs h.fcf_flags
    rw [mgmtFrameWire, ← hb]
    apply RdAt.run
    apply RdAt.cast
    · apply RdAt.le (h := by decide) (hp := by decide)
      simp only [ht, hg]
      apply RdAt.bind (RdAt.gread (c21_round_trip_partial h hc body) (by simp [mgmtHeaderWire]; omega))
      exact RdAt.bind_pure (RdAt.gread hr hl) rfl
    · simp
  cases fcs
  · exact key
  · have := (c05_accepts_iff _ (mgmtFrameWire s h body)).2 rfl
    simp only [readMgmtFrame, withFcs, if_true, this, Res.ok_bind, key]

/-- Complete round trip, for every body with the layout described in C22. -/
theorem c23_round_trip_partial {β : Type → Type} {read : Reader (β Bytes)} {write : β Obj → Writer}
    {get : (ε : Type) → β ε → ε} {set : (ε δ : Type) → β ε → δ → β δ}
    {fixed : (ε : Type) → β ε → Bytes} {valid : β Bytes → Prop} {n : Nat} {need : Nat → Nat}
    {same : Bytes → Bytes → Prop} (hB : BodyOf read write get set fixed valid n need same)
    (s : ManagementFrameSubtype) (hs : ValidSubtype s) (h : ManagementFrameHeader)
    (hc : HtConsistent h) (b : β Obj) (e : Bytes) (m : Nat) (he : Emits (get _ b).write e m)
    (hv : valid (set _ _ b e)) (hl : slack ≤ e.length) (fcs : Bool) :
    ∃ size, ∀ buf : Bytes, size ≤ buf.length →
      ∃ out k, writeMgmtFrame s h (write b) fcs buf = .ok (out, k) ∧
        k = h.lengthInBytes + n + e.length + (if fcs then 4 else 0) ∧
        readMgmtFrame read fcs (out.take k) =
          .ok ((h, set _ _ b e), h.lengthInBytes + n + e.length) := by
  have hw := c23_write s hs h (write b) _ _ (hB.writes b e m he) fcs
  refine ⟨_, fun buf hbuf => ⟨_, _, hw.ok buf hbuf, ?_, ?_⟩⟩
  · have hf : (fixed _ b).length = n := by rw [← hB.fixed_set b e]; exact hB.size _
    have := c21_length h
    cases fcs <;> simp [withFcs, mgmtFrameWire, hf, this] <;> omega
  · rw [List.take_left]
    have hr := hB.reads (set _ _ b e) hv (by rw [hB.get_set]; exact hl)
    rw [hB.get_set, hB.fixed_set] at hr
    rw [c23_read s hs h hc read _ _ _ hr (by simp; omega) fcs, c21_length]
    congr 2
    omega

/-- Conversely, whatever is accepted is a management frame laid out like this: the flags and the type
come from the frame control field, the body's parser gets everything after the header up to the check
sequence, which is right. -/
theorem c23_parse {β : Type} (r : Reader β) (hbr : Bounded r) (fcs : Bool) (inp : Bytes) (h : ManagementFrameHeader)
    (b : β) (n : Nat) (hr : readMgmtFrame r fcs inp = .ok ((h, b), n)) :
    ∃ (b0 : Byte) (body : Bytes) (k : Nat),
      inp = withFcs fcs (b0 :: h.fcf_flags.bits :: (mgmtHeaderWire h ++ body)) ∧
      b0.toNat / 4 % 4 = 0 ∧ HtConsistent h ∧ r body = .ok (b, k) ∧
      n = 2 + ((mgmtHeaderWire h).length + k) := by
  obtain ⟨frame, hframe, hbody⟩ : ∃ frame, inp = withFcs fcs frame ∧
      readMgmtFrameBody r frame = .ok ((h, b), n) := by
    cases fcs
    · exact ⟨inp, rfl, hr⟩
    · simp only [readMgmtFrame, if_true] at hr
      cases hs : stripAndValidateFcs inp with
      | ok frame =>
        rw [hs] at hr
        exact ⟨frame, (c05_accepts_iff _ _).1 hs, hr⟩
      | err e => rw [hs] at hr; simp at hr
      | panic => rw [hs] at hr; simp at hr
  subst hframe
  have c21_parses : ∀ f, ParsesR (readMgmtHeader f) (fun h bs _ => bs = mgmtHeaderWire h ∧
      h.fcf_flags = f ∧ HtConsistent h) := by
    intro f inp h n hr
    obtain ⟨rest, rfl, rfl, h1, h2⟩ := c21_parse f inp h n hr
    exact ⟨_, rest, rfl, rfl, rfl, h1, h2⟩
  have hp : ParsesR (readMgmtFrameBody r) (fun x bs rest => ∃ (b0 : Byte) (bs' : Bytes),
      bs = b0 :: x.1.fcf_flags.bits :: (mgmtHeaderWire x.1 ++ bs') ∧ b0.toNat / 4 % 4 = 0 ∧
      HtConsistent x.1 ∧ r (bs' ++ rest) = .ok (x.2, bs'.length)) := by
    apply Parses.run
    refine Parses.imp (Parses.bind (R := fun f x bs rest => ∃ bs',
        bs = mgmtHeaderWire x.1 ++ bs' ∧ x.1.fcf_flags = (FrameControlField.mk f).fcfFlags ∧
        (typeNumbers (FrameControlField.mk f).frameType).1 = 0 ∧ HtConsistent x.1 ∧
        r (bs' ++ rest) = .ok (x.2, bs'.length)) (Parses.gread' (readLE_parses 16 rfl)) ?_) ?_
    · intro f
      dsimp only
      split
      · rename_i s hs
        refine Parses.imp (Parses.bind (Parses.gread' (c21_parses _)) fun _ =>
          Parses.bind (Parses.gread' hbr.parses) fun _ => Parses.pure) ?_
        rintro x bs rest ⟨h, _, _, rfl, ⟨rfl, hf, hc⟩, b, bs', _, rfl, hb, rfl, rfl⟩
        exact ⟨bs', by simp, hf, by rw [hs]; rfl, hc, by simpa using hb⟩
      · exact Parses.fail
    · rintro x bs rest ⟨f, _, _, rfl, rfl, bs', rfl, hf, ht, hc, hb⟩
      obtain ⟨b0, h0, h1⟩ := fcf_of_bytes f
      refine ⟨b0, bs', by rw [h0, hf]; rfl, ?_, hc, hb⟩
      rw [h1] at ht
      exact ht
  obtain ⟨bs, rest, rfl, rfl, b0, bs', rfl, h0, hc, hb⟩ := hp _ _ _ hbody
  exact ⟨b0, bs' ++ rest, bs'.length, by simp, h0, hc, hb, by simp; omega⟩

/-- Reading a frame of another type is an error, whatever the body's parser. -/
theorem c23_wrong_type {β : Type} (r : Reader β) (fcs : Bool) (b0 : Byte) (rest : Bytes)
    (ht : b0.toNat / 4 % 4 ≠ 0) : ∃ e, readMgmtFrame r fcs (withFcs fcs (b0 :: rest)) = .err e := by
  have key : ∃ e, readMgmtFrameBody r (b0 :: rest) = .err e := by
    have hsl := slack_le
    by_cases hl : rest = []
    · subst hl
      refine Rd.Needs.run (n := 2) ?_ _ (by simp)
      exact Rd.Needs.left (Rd.Needs.gread (readLE_fixed 16))
    · obtain ⟨b1, rest, rfl⟩ := List.exists_cons_of_ne_nil hl
      obtain ⟨v, hv⟩ : ∃ v : BitVec 16, toLE v = [b0, b1] :=
        ⟨fromLE 16 [b0, b1], toLE_fromLE rfl _ rfl⟩
      rw [show b0 :: b1 :: rest = toLE v ++ rest by rw [hv]; rfl]
      apply RdErr.run
      apply RdErr.bind_right (RdAt.gread (readLE_append rfl v rest) (by simp; omega))
      obtain ⟨c0, h0, h1⟩ := fcf_of_bytes v
      rw [hv] at h0
      simp only [List.cons.injEq] at h0
      rw [← h0.1] at h1
      dsimp only
      split
      · rename_i s hs
        rw [hs] at h1
        exact absurd (congrArg Prod.fst h1).symm ht
      · exact RdErr.fail
  obtain ⟨e, he⟩ := key
  refine ⟨e, ?_⟩
  cases fcs
  · exact he
  · have := (c05_accepts_iff _ (b0 :: rest)).2 rfl
    simp only [readMgmtFrame, withFcs, if_true, this, Res.ok_bind, he]

/-- A frame with a wrong check sequence is an error. -/
theorem c23_wrong_fcs {β : Type} (r : Reader β) (frame fcs : Bytes) (h4 : fcs.length = 4)
    (hne : fcs ≠ toLE (Crc32.hash frame)) : ∃ e, readMgmtFrame r true (frame ++ fcs) = .err e := by
  obtain ⟨e, he⟩ := c05_rejects frame fcs h4 hne
  exact ⟨e, by simp only [readMgmtFrame, if_true, he]; rfl⟩

/-- Nothing panics unless the body's parser does, or a check sequence is expected in fewer than four
bytes. -/
theorem c23_safe {β : Type} (r : Reader β) (hr : SafeReader r) (fcs : Bool) (inp : Bytes)
    (hl : fcs = true → 4 ≤ inp.length) : readMgmtFrame r fcs inp ≠ .panic := by
  have key : SafeReader (readMgmtFrameBody r) := by
    apply Rd.Safe.run
    apply Rd.Safe.bind (Rd.Safe.gread (readLE_fixed 16).safe); intro f
    dsimp only
    split
    · apply Rd.Safe.bind (Rd.Safe.gread (c21_fixed _).safe); intro _
      apply Rd.Safe.bind (Rd.Safe.gread hr); intro _
      exact Rd.Safe.pure
    · exact Rd.Safe.fail
  cases fcs
  · exact key.ne_panic inp
  · simp only [readMgmtFrame, if_true]
    cases hs : stripAndValidateFcs inp with
    | ok x => exact key.ne_panic x
    | err e => simp
    | panic => exact absurd ((c05_short_panics_iff inp).1 hs) (Nat.not_lt.2 (hl rfl))

/-- Violation: with fewer than four bytes it does panic. -/
theorem c23_short_fcs {β : Type} (r : Reader β) (inp : Bytes) (hl : inp.length < 4) :
    readMgmtFrame r true inp = .panic := by
  have := (c05_short_panics_iff inp).2 hl
  simp only [readMgmtFrame, if_true, this]
  rfl

/-- The reported size is the number of bytes written, whenever the body reports its own. -/
theorem c23_measure (s : ManagementFrameSubtype) (hs : ValidSubtype s) (h : ManagementFrameHeader)
    (w : Writer) (body : Bytes) (m : Nat) (hw : Emits w body m) (fcs : Bool) (buf out : Bytes) (k : Nat)
    (hk : writeMgmtFrame s h w fcs buf = .ok (out, k)) :
    measureMgmtFrame h body.length fcs = k := by
  have hE := c23_write s hs h w body m hw fcs
  by_cases hb : max ((mgmtHeaderWire h).length + 2 + max m slack)
      ((mgmtFrameWire s h body).length + if fcs then 4 else 0) ≤ buf.length
  · have := hk.symm.trans (hE.ok buf hb)
    simp only [Res.ok.injEq, Prod.mk.injEq] at this
    rw [this.2, measureMgmtFrame, c21_length]
    cases fcs <;> simp [withFcs, mgmtFrameWire] <;> omega
  · obtain ⟨x, hx⟩ := hE.err buf (by omega)
    rw [hx] at hk
    simp at hk

omit [Crc32] in
/-- The bodies of the library are written with the subtype numbers of the standard, all of them valid. -/
theorem c23_subtypes :
    (∀ k : MgmtKind, ValidSubtype k.SUBTYPE) ∧
    [MgmtKind.AssociationRequest, .AssociationResponse, .ProbeRequest, .ProbeResponse, .Beacon,
      .Disassociation, .Authentication, .Deauthentication, .RawAction, .VendorAction,
      .MeshPeeringOpen, .MeshPeeringConfirm, .MeshPeeringClose].map
        (fun k => (typeNumbers k.frame.type)) =
      [(0, 0), (0, 1), (0, 4), (0, 5), (0, 8), (0, 10), (0, 11), (0, 12), (0, 13), (0, 13), (0, 13),
        (0, 13), (0, 13)] := by
  constructor
  · intro k
    refine ⟨?_, ?_⟩
    · cases k <;> decide
    · cases k <;> intro v hv <;> cases hv
  · rfl

/-- Violation: only the type is checked, not the subtype, so a deauthentication frame (subtype 12) is
accepted by the parser for disassociation frames (subtype 10), and conversely. -/
theorem c23_other_subtype_accepted (s : ManagementFrameSubtype) (hs : ValidSubtype s)
    (h : ManagementFrameHeader) (hc : HtConsistent h) (b : ReasonBody Bytes) (hv : b.reason.Canonical)
    (hl : slack ≤ b.elements.length) (fcs : Bool) :
    (readMgmtFrame readDisassociation fcs
      (withFcs fcs (mgmtFrameWire s h (toLE b.reason.intoBits ++ b.elements)))).isOk = true := by
  rw [c23_read s hs h hc _ _ _ _ (c22_disassociation.reads b hv hl) (by simp; omega) fcs]
  rfl

/-- A concrete frame: an authentication frame with check sequence under a toy checksum. -/
example : let _ : Crc32 := ⟨fun bs => BitVec.ofNat 32 bs.length⟩
    let m : Mac := ⟨[1, 2, 3, 4, 5, 6], rfl⟩
    let h : ManagementFrameHeader := ⟨⟨8⟩, 0x102, m, m, m, ⟨0x30⟩, none⟩
    let frame : Bytes := [0xb0, 8, 2, 1, 1, 2, 3, 4, 5, 6, 1, 2, 3, 4, 5, 6, 1, 2, 3, 4, 5, 6, 0x30, 0,
      0, 0, 1, 0, 0, 0, 221, 3, 1, 2, 3, 35, 0, 0, 0]
    writeMgmtFrame .Authentication h (writeAuthentication ⟨.fromBits 0, 1, .fromBits 0,
      elementsObj [221, 3, 1, 2, 3]⟩) true (List.replicate 39 0) = .ok (frame, 39) ∧
    readMgmtFrame readAuthentication true frame =
      .ok ((h, ⟨.fromBits 0, 1, .fromBits 0, [221, 3, 1, 2, 3]⟩), 35) := by
  cases ‹ScrollRule› with | mk s => cases s <;> decide +kernel

end Verif
