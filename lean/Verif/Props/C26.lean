import Verif.Lemmas.Fcf
import Verif.Lemmas.Rsn
import Verif.Model.Frames.Control
/-!
# C26: control frames
-/
namespace Verif

namespace Spec

/-- A control frame after its frame control field, in the order of the standard. -/
def controlWire : ControlFrame → Bytes
  | .RTS _ duration ra ta => toLE duration ++ (ra.val ++ ta.val)
  | .CTS _ duration ra => toLE duration ++ ra.val
  | .Ack _ duration ra => toLE duration ++ ra.val
  | .Unknown _ _ body => body

/-- `Unknown` stands for the subtypes without a variant of their own only. -/
def ProperControl : ControlFrame → Prop
  | .Unknown s _ _ => s ≠ .RTS ∧ s ≠ .CTS ∧ s ≠ .Ack
  | _ => True

end Spec

open Spec

variable [ScrollRule]

/-- The bytes written.  Only an empty unknown body at the end of the buffer depends on the rule of
scroll for writing at the end. -/
theorem c26_write (c : ControlFrame) :
    Emits (writeControlFrame c) (controlWire c) (max (controlWire c).length slack) := by
  have hsl := slack_le
  cases c with
  | RTS f d ra ta =>
    apply Emits.cast
    · apply WEmits.run
      wr_steps
      exact WEmits.gwrite_pos (Emits.bytes _) (by simp)
    · rfl
    · simp [controlWire]; omega
  | CTS f d ra =>
    apply Emits.cast
    · apply WEmits.run
      wr_steps
      exact WEmits.gwrite_pos (Emits.bytes _) (by simp)
    · rfl
    · simp [controlWire]; omega
  | Ack f d ra =>
    apply Emits.cast
    · apply WEmits.run
      wr_steps
      exact WEmits.gwrite_pos (Emits.bytes _) (by simp)
    · rfl
    · simp [controlWire]; omega
  | Unknown s f body =>
    exact WEmits.run (WEmits.gwrite (Emits.bytes _))

/-- Parsing what was written under the frame's subtype and flags gives the frame back. -/
theorem c26_round_trip (c : ControlFrame) (h : ProperControl c) :
    readControlFrame c.getSubtype c.getFcfFlags (controlWire c) = .ok (c, (controlWire c).length) := by
  have hsl := slack_le
  cases c with
  | RTS f d ra ta =>
    rw [show controlWire (.RTS f d ra ta) = toLE d ++ (ra.val ++ (ta.val ++ [])) by simp [controlWire]]
    apply RdAt.run
    apply RdAt.cast
    · show RdAt (do
        let d ← Rd.gread (readLE 16)
        let ra ← Rd.gread readMac
        let ta ← Rd.gread readMac
        pure (ControlFrame.RTS f d ra ta)) _ _ _
      rd_steps
    · simp
  | CTS f d ra =>
    rw [show controlWire (.CTS f d ra) = toLE d ++ (ra.val ++ []) by simp [controlWire]]
    apply RdAt.run
    apply RdAt.cast
    · show RdAt (do
        let d ← Rd.gread (readLE 16)
        let ra ← Rd.gread readMac
        pure (ControlFrame.CTS f d ra)) _ _ _
      rd_steps
    · simp
  | Ack f d ra =>
    rw [show controlWire (.Ack f d ra) = toLE d ++ (ra.val ++ []) by simp [controlWire]]
    apply RdAt.run
    apply RdAt.cast
    · show RdAt (do
        let d ← Rd.gread (readLE 16)
        let ra ← Rd.gread readMac
        pure (ControlFrame.Ack f d ra)) _ _ _
      rd_steps
    · simp
  | Unknown s f body =>
    obtain ⟨h1, h2, h3⟩ := h
    have : readControlFrame s f = Rd.run (do
        let body ← Rd.remaining
        Rd.toEnd
        pure (.Unknown s f body)) := by
      unfold readControlFrame
      split <;> first | rfl | contradiction
    show readControlFrame s f body = .ok (.Unknown s f body, body.length)
    rw [this]
    apply RdAt.run
    apply RdAt.cast
    · apply RdAt.bind0 RdAt.remaining
      exact RdAt.bind_pure RdAt.toEnd rfl
    · simp

/-- Whatever is accepted is such a frame, with the subtype and flags given. -/
theorem c26_parse (s : ControlFrameSubtype) (f : FCFFlags) (inp : Bytes) (c : ControlFrame) (n : Nat)
    (h : readControlFrame s f inp = .ok (c, n)) :
    ∃ rest, inp = controlWire c ++ rest ∧ n = (controlWire c).length ∧ c.getSubtype = s ∧
      c.getFcfFlags = f ∧ ProperControl c := by
  cases hs : s with
  | RTS =>
    subst hs
    have hp := (Parses.bind (Parses.gread' (readLE_parses 16 rfl)) fun _ =>
      Parses.bind (Parses.gread' (readArr_parses 6)) fun _ =>
      Parses.bind (Parses.gread' (readArr_parses 6)) fun _ => Parses.pure).run inp c n h
    obtain ⟨bs, rest, rfl, rfl, d, _, _, rfl, rfl, a, _, _, rfl, rfl, b, _, _, rfl, rfl, rfl, rfl⟩ := hp
    exact ⟨rest, by simp [controlWire], by simp [controlWire], rfl, rfl, trivial⟩
  | CTS =>
    subst hs
    have hp := (Parses.bind (Parses.gread' (readLE_parses 16 rfl)) fun _ =>
      Parses.bind (Parses.gread' (readArr_parses 6)) fun _ => Parses.pure).run inp c n h
    obtain ⟨bs, rest, rfl, rfl, d, _, _, rfl, rfl, a, _, _, rfl, rfl, rfl, rfl⟩ := hp
    exact ⟨rest, by simp [controlWire], by simp [controlWire], rfl, rfl, trivial⟩
  | Ack =>
    subst hs
    have hp := (Parses.bind (Parses.gread' (readLE_parses 16 rfl)) fun _ =>
      Parses.bind (Parses.gread' (readArr_parses 6)) fun _ => Parses.pure).run inp c n h
    obtain ⟨bs, rest, rfl, rfl, d, _, _, rfl, rfl, a, _, _, rfl, rfl, rfl, rfl⟩ := hp
    exact ⟨rest, by simp [controlWire], by simp [controlWire], rfl, rfl, trivial⟩
  | _ =>
    rw [← hs]
    have hx := c26_round_trip (.Unknown s f inp) ⟨by simp [hs], by simp [hs], by simp [hs]⟩
    simp only [ControlFrame.getSubtype, ControlFrame.getFcfFlags, controlWire] at hx
    have := h.symm.trans hx
    simp only [Res.ok.injEq, Prod.mk.injEq] at this
    obtain ⟨rfl, rfl⟩ := this
    exact ⟨[], by simp [controlWire], rfl, rfl, rfl, by simp [hs], by simp [hs], by simp [hs]⟩

/-- Nothing panics, and the fixed layouts refuse short input. -/
theorem c26_safe (s : ControlFrameSubtype) (f : FCFFlags) (inp : Bytes) :
    readControlFrame s f inp ≠ .panic ∧
    (s = .RTS → inp.length < 14 → ∃ e, readControlFrame s f inp = .err e) ∧
    (s = .CTS ∨ s = .Ack → inp.length < 8 → ∃ e, readControlFrame s f inp = .err e) := by
  have hsafe : readControlFrame s f inp ≠ .panic := by
    apply SafeReader.ne_panic
    apply Rd.Safe.run
    split <;> rd_safe
  have herr : (∀ c n, readControlFrame s f inp ≠ .ok (c, n)) → ∃ e, readControlFrame s f inp = .err e := by
    intro h
    cases hr : readControlFrame s f inp with
    | ok x => exact absurd hr (h x.1 x.2)
    | err e => exact ⟨e, rfl⟩
    | panic => exact absurd hr hsafe
  refine ⟨hsafe, ?_, ?_⟩
  · intro hs hl
    apply herr
    intro c n hc
    obtain ⟨rest, rfl, rfl, h1, _, h2⟩ := c26_parse s f inp c n hc
    subst hs
    cases c <;> simp [controlWire, ControlFrame.getSubtype, ProperControl] at * <;>
      first | omega | exact h2.1 h1
  · intro hs hl
    apply herr
    intro c n hc
    obtain ⟨rest, rfl, rfl, h1, _, h2⟩ := c26_parse s f inp c n hc
    cases c <;> simp [controlWire, ControlFrame.getSubtype, ProperControl] at * <;>
      first | omega | (subst h1; simp_all)

omit [ScrollRule] in
/-- The reported length is that of the bytes written, except for Ack frames. -/
theorem c26_length_partial (c : ControlFrame) (h : c.getSubtype ≠ .Ack ∨ ∃ s f b, c = .Unknown s f b) :
    c.lengthInBytes = (controlWire c).length := by
  cases c <;> simp [ControlFrame.lengthInBytes, controlWire, ControlFrame.getSubtype] at *

omit [ScrollRule] in
/-- Violation: an Ack reports fourteen bytes and writes eight. -/
theorem c26_ack_length (f : FCFFlags) (d : BitVec 16) (ra : Mac) :
    (ControlFrame.Ack f d ra).lengthInBytes = 14 ∧ (controlWire (.Ack f d ra)).length = 8 := by
  simp [ControlFrame.lengthInBytes, controlWire]

omit [ScrollRule] in
/-- The frame control field of a control frame has the control type, its subtype and its flags. -/
theorem c26_fcf (c : ControlFrame) (h : ValidFrameType (.Control c.getSubtype)) :
    ∃ f, c.getFcf = .ok f ∧ f.frameType = .Control c.getSubtype ∧ f.fcfFlags = c.getFcfFlags ∧
      toLE f.bits = frameStart (.Control c.getSubtype) c.getFcfFlags := by
  obtain ⟨f, hf, hb, ht, hg⟩ := fcf_written (.Control c.getSubtype) h c.getFcfFlags
  exact ⟨_, by simp only [ControlFrame.getFcf, hf]; rfl, ht, hg, hb⟩

/-- The receiver address is at offset two of the written frame whenever that has one, for unknown
bodies of eight bytes or more as well; the transmitter address, for RTS only, at offset eight. -/
theorem c26_addresses (c : ControlFrame) :
    (8 ≤ (controlWire c).length → c.receiverAddress.val = ((controlWire c).drop 2).take 6) ∧
    (∀ a, c.transmitterAddress = some a → a.val = ((controlWire c).drop 8).take 6) ∧
    (c.transmitterAddress.isSome ↔ ∃ f d ra ta, c = .RTS f d ra ta) := by
  have hsl := slack_le
  refine ⟨?_, ?_, ?_⟩
  · cases c with
    | Unknown s f body =>
      intro hl
      simp only [controlWire] at hl ⊢
      have hsplit : body = body.take 2 ++ ((body.drop 2).take 6 ++ body.drop 8) := by
        rw [← List.drop_drop (i := 6) (j := 2), List.take_append_drop, List.take_append_drop]
      have h6 : ((body.drop 2).take 6).length = 6 := by simp; omega
      have := RdAt.gread (readArr_append ⟨(body.drop 2).take 6, h6⟩ (body.drop 8)) (by simp; omega)
        (body.take 2)
      simp only [List.length_take, Nat.min_eq_left (show 2 ≤ body.length by omega)] at this
      rw [← hsplit] at this
      simp only [ControlFrame.receiverAddress, pread, readMac, this]
      rfl
    | _ => intro _; simp [controlWire, ControlFrame.receiverAddress, toLE, leBytes, List.take_of_length_le]
  · intro a h
    cases c <;> simp [ControlFrame.transmitterAddress] at h
    subst h
    rename_i ra ta
    obtain ⟨ra, hra⟩ := ra
    obtain ⟨ta, hta⟩ := ta
    simp [controlWire, toLE, leBytes, hra, hta, List.take_of_length_le]
  · cases c <;> simp [ControlFrame.transmitterAddress]

/-- An unknown body too short for an address has the all-zero address. -/
theorem c26_short_body (c : ControlFrame) (h : (controlWire c).length < 8) :
    c.receiverAddress.val = [0, 0, 0, 0, 0, 0] := by
  have hsl := slack_le
  cases c with
  | Unknown s f body =>
    simp only [controlWire] at h
    have : ∃ e, pread readMac 2 body = .err e := by
      simp only [pread, Rd.gread, badOff_eq]
      by_cases hb : body.length < 2 + slack
      · exact ⟨_, by rw [if_pos (by simpa using hb)]; rfl⟩
      · rw [if_neg (by simpa using hb)]
        obtain ⟨e, he⟩ := (readArr_fixed 6 (body.drop 2)).2 (by simp; omega)
        exact ⟨e, by rw [readMac, he]; rfl⟩
    obtain ⟨e, he⟩ := this
    simp only [ControlFrame.receiverAddress, he]
  | RTS f d ra ta => simp [controlWire] at h
  | CTS f d ra => simp [controlWire] at h
  | Ack f d ra => simp [controlWire] at h

/-- A concrete RTS frame. -/
example : let ra : Mac := ⟨[1, 2, 3, 4, 5, 6], rfl⟩
    let ta : Mac := ⟨[7, 8, 9, 10, 11, 12], rfl⟩
    let c := ControlFrame.RTS ⟨0⟩ 0x102 ra ta
    writeControlFrame c (List.replicate 15 0xff) =
      .ok ([2, 1, 1, 2, 3, 4, 5, 6, 7, 8, 9, 10, 11, 12, 0xff], 14) ∧
    readControlFrame .RTS ⟨0⟩ [2, 1, 1, 2, 3, 4, 5, 6, 7, 8, 9, 10, 11, 12] = .ok (c, 14) := by
  cases ‹ScrollRule› with | mk s => cases s <;> decide +kernel

end Verif
