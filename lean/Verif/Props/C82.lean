import Verif.Model.Attempt
import Verif.Props.C45
import Verif.Props.C73
/-!
# C82: an element that cannot be added does no harm
-/
namespace Verif

variable [ScrollRule]

namespace Spec

/-- An element that the caller tries to add, what its writer leaves in the buffer should it fail, and the element as it
is to be sent, if it can be sent at all; `extra` is how many bytes of buffer beyond those of the element writing it
takes. -/
structure Attempt where
  element : Elem
  residue : Bytes → Bytes
  raw : Option RawElement
  extra : Nat

/-- A slice keeps its length. -/
def Attempt.KeepsLength (a : Attempt) : Prop := ∀ b, (a.residue b).length = b.length

/-- The element is what is claimed. -/
def Attempt.Is (a : Attempt) : Prop :=
  match a.raw with
  | some r => ItemOf (.typed a.element) r a.extra
  | none => Refuses a.element.writeWrapped

/-- The program: add one element after the other and go on whether or not that succeeds.  Returned are the elements
whose addition was reported as a success, and the frame. -/
def tryAll : List Attempt → DynamicManagementFrame → Res (List Elem × DynamicManagementFrame)
  | [], d => .ok ([], d)
  | a :: as, d =>
    match d.tryAddElement a.residue a.element with
    | (.ok _, d') => (tryAll as d').map fun r => (a.element :: r.1, r.2)
    | (.err _, d') => tryAll as d'
    | (.panic, _) => .panic

/-- The bytes of the frame so far. -/
def soFar (d : DynamicManagementFrame) : Bytes := d.buffer.take d.offset

/-- What is sent by a frame that is finished. -/
def sentBy [Crc32] (d : DynamicManagementFrame) (fcs : Bool) : Res Bytes :=
  (d.finish fcs).map fun r => r.1.take r.2

/-- The attempts that succeed if there is room for so many bytes: each one for which there is room after those before
it. -/
def firstFit : Nat → List Attempt → List (Elem × RawElement)
  | _, [] => []
  | room, a :: as =>
    match a.raw with
    | none => firstFit room as
    | some r =>
      if (tlv r).length + a.extra ≤ room then (a.element, r) :: firstFit (room - (tlv r).length) as
      else firstFit room as

end Spec

open Spec

/-- A step that fails changes neither the offset nor the bytes before it nor the size of the buffer, whatever the writer
of the element did. -/
theorem c82_failed_step (residue : Bytes → Bytes) (hr : ∀ b, (residue b).length = b.length)
    (d : DynamicManagementFrame) (e : Elem) (x : Err) (h : (d.tryAddElement residue e).1 = .err x) :
    let d' := (d.tryAddElement residue e).2
    d'.offset = d.offset ∧ soFar d' = soFar d ∧ d'.buffer.length = d.buffer.length := by
  simp only [DynamicManagementFrame.tryAddElement] at h ⊢
  cases hg : Wr.gwrite e.writeWrapped d.buffer d.offset with
  | ok y => rw [hg] at h; cases h
  | panic => rw [hg] at h; cases h
  | err y =>
    refine ⟨rfl, ?_, ?_⟩
    · simp only [soFar]
      by_cases ho : d.offset ≤ d.buffer.length
      · rw [List.take_append_of_le_length (by rw [List.length_take]; omega), List.take_take, Nat.min_self]
      · have h0 : residue (d.buffer.drop d.offset) = [] := by
          apply List.eq_nil_of_length_eq_zero
          rw [hr, List.length_drop]
          omega
        rw [h0, List.append_nil, List.take_take, Nat.min_self]
    · simp only [List.length_append, hr, List.length_take, List.length_drop]
      omega

/-- A step succeeds exactly if `add_element` does in the other transcription, with the same frame. -/
theorem c82_model (residue : Bytes → Bytes) (d : DynamicManagementFrame) (e : Elem) :
    (d.tryAddElement residue e).1 = (d.addElement e).map (fun _ => ()) ∧
    ∀ d', d.addElement e = .ok d' → (d.tryAddElement residue e).2 = d' := by
  simp only [DynamicManagementFrame.tryAddElement, DynamicManagementFrame.addElement]
  cases Wr.gwrite e.writeWrapped d.buffer d.offset with
  | ok y => exact ⟨rfl, fun d' h => by cases h; rfl⟩
  | err y => exact ⟨rfl, fun d' h => by cases h⟩
  | panic => exact ⟨rfl, fun d' h => by cases h⟩

private theorem loop (as : List Attempt) (hb : ∀ a ∈ as, Blind a.element.writeWrapped)
    (hr : ∀ a ∈ as, a.KeepsLength) : ∀ (pre t u : Bytes), t.length = u.length → ∀ taken d',
    tryAll as ⟨pre ++ t, pre.length⟩ = .ok (taken, d') →
    taken.Sublist (as.map (·.element)) ∧
    ∃ pre' t' u', t'.length = u'.length ∧ d' = ⟨pre' ++ t', pre'.length⟩ ∧
      taken.foldlM DynamicManagementFrame.addElement ⟨pre ++ u, pre.length⟩ = .ok ⟨pre' ++ u', pre'.length⟩ := by
  induction as with
  | nil =>
    intro pre t u htu taken d' h
    cases h
    exact ⟨List.nil_sublist _, pre, t, u, htu, rfl, rfl⟩
  | cons a as ih =>
    intro pre t u htu taken d' h
    have hb' := fun x hx => hb x (List.mem_cons_of_mem _ hx)
    have hr' := fun x hx => hr x (List.mem_cons_of_mem _ hx)
    simp only [tryAll, DynamicManagementFrame.tryAddElement] at h
    rcases WBlind.gwrite (hb a List.mem_cons_self) pre.length t.length with ⟨e, he⟩ | he | ⟨x, bs, hl, he⟩
    · rw [he pre t rfl rfl] at h
      simp only [List.take_left, List.drop_left] at h
      obtain ⟨h1, h2⟩ := ih hb' hr' pre (a.residue t) u (by rw [hr a List.mem_cons_self]; exact htu) taken d' h
      exact ⟨h1.cons _, h2⟩
    · rw [he pre t rfl rfl] at h
      cases h
    · rw [he pre t rfl rfl] at h
      simp only at h
      have e1 : (⟨pre ++ (bs ++ t.drop bs.length), pre.length + bs.length⟩ : DynamicManagementFrame) =
          ⟨(pre ++ bs) ++ t.drop bs.length, (pre ++ bs).length⟩ := by
        rw [List.append_assoc, List.length_append]
      rw [e1] at h
      cases hr2 : tryAll as ⟨(pre ++ bs) ++ t.drop bs.length, (pre ++ bs).length⟩ with
      | err e => rw [hr2] at h; cases h
      | panic => rw [hr2] at h; cases h
      | ok y =>
        obtain ⟨l, d''⟩ := y
        rw [hr2] at h
        cases h
        obtain ⟨h1, pre', t', u', hl', hd, hf⟩ := ih hb' hr' (pre ++ bs) (t.drop bs.length) (u.drop bs.length)
          (by rw [List.length_drop, List.length_drop, htu]) l _ hr2
        refine ⟨h1.cons_cons _, pre', t', u', hl', hd, ?_⟩
        rw [List.foldlM_cons]
        have e2 : DynamicManagementFrame.addElement ⟨pre ++ u, pre.length⟩ a.element =
            .ok ⟨(pre ++ bs) ++ u.drop bs.length, (pre ++ bs).length⟩ := by
          rw [DynamicManagementFrame.addElement]
          show Res.map _ (Wr.gwrite a.element.writeWrapped (pre ++ u) pre.length) = _
          rw [he pre u rfl htu.symm]
          simp only [Res.map, List.append_assoc, List.length_append]
        rw [e2]
        exact hf

/-- Elements of the library, or of the user as long as their writers do not look at the buffer: after any number of
attempts, some of which failed, the frame is the one there would be had the failed ones never been made.  The bytes so
far, the number of them, the room that is left, and what is sent when the frame is finished are the same. -/
theorem c82_as_if [Crc32] (as : List Attempt) (hs : ∀ a ∈ as, Sends a.element.obj.write)
    (hr : ∀ a ∈ as, a.KeepsLength) (d : DynamicManagementFrame) (hd : d.offset ≤ d.buffer.length)
    (taken : List Elem) (d' : DynamicManagementFrame) (h : tryAll as d = .ok (taken, d')) :
    taken.Sublist (as.map (·.element)) ∧
    ∃ d'', taken.foldlM DynamicManagementFrame.addElement d = .ok d'' ∧ d'.offset = d''.offset ∧
      soFar d' = soFar d'' ∧ d'.buffer.length = d''.buffer.length ∧
      ∀ fcs, sentBy d' fcs = sentBy d'' fcs := by
  have hb : ∀ a ∈ as, Blind a.element.writeWrapped := fun a ha =>
    (oblivious_iff_blind _).mp (c73_oblivious_partial (Sends.element _ (hs a ha)))
  obtain ⟨buf, off⟩ := d
  have e0 : (⟨buf, off⟩ : DynamicManagementFrame) = ⟨buf.take off ++ buf.drop off, (buf.take off).length⟩ := by
    rw [List.take_append_drop, List.length_take]
    simp only at hd
    rw [Nat.min_eq_left hd]
  rw [e0] at h ⊢
  obtain ⟨h1, pre, t, u, htu, hd', hf⟩ := loop as hb hr _ _ _ rfl taken d' h
  refine ⟨h1, _, hf, ?_⟩
  subst hd'
  refine ⟨rfl, by simp [soFar], by simp [htu], fun fcs => ?_⟩
  cases fcs
  · simp [sentBy, DynamicManagementFrame.finish, Res.map]
  · simp only [sentBy, DynamicManagementFrame.finish, if_true]
    rw [if_pos (by simp), if_pos (by simp), List.take_left, List.take_left]
    rcases WBlind.gwrite (Blind.le (Crc32.hash pre)) pre.length t.length with ⟨e, he⟩ | he | ⟨x, bs, hl, he⟩
    · rw [he pre t rfl rfl, he pre u rfl htu.symm]
    · rw [he pre t rfl rfl, he pre u rfl htu.symm]
    · rw [he pre t rfl rfl, he pre u rfl htu.symm]
      simp only [Res.map]
      rw [← List.append_assoc, ← List.append_assoc, ← List.length_append, List.take_left, List.take_left]

private theorem exact_loop (as : List Attempt) (hi : ∀ a ∈ as, a.Is) (hr : ∀ a ∈ as, a.KeepsLength) :
    ∀ (pre t : Bytes), ∃ t' : Bytes,
      (((firstFit t.length as).map Prod.snd).flatMap tlv).length + t'.length = t.length ∧
      tryAll as ⟨pre ++ t, pre.length⟩ = .ok ((firstFit t.length as).map Prod.fst,
        ⟨(pre ++ ((firstFit t.length as).map Prod.snd).flatMap tlv) ++ t',
          (pre ++ ((firstFit t.length as).map Prod.snd).flatMap tlv).length⟩) := by
  induction as with
  | nil => intro pre t; exact ⟨t, by simp [firstFit], by simp [firstFit, tryAll]⟩
  | cons a as ih =>
    intro pre t
    have ih := ih (fun x hx => hi x (List.mem_cons_of_mem _ hx)) (fun x hx => hr x (List.mem_cons_of_mem _ hx))
    have hia := hi a List.mem_cons_self
    have hra := hr a List.mem_cons_self
    have hsl := slack_le
    have failing : ∀ e, Wr.gwrite a.element.writeWrapped (pre ++ t) pre.length = .err e →
        tryAll (a :: as) ⟨pre ++ t, pre.length⟩ = tryAll as ⟨pre ++ a.residue t, pre.length⟩ := by
      intro e he
      rw [tryAll, DynamicManagementFrame.tryAddElement]
      simp only [he, List.take_left, List.drop_left]
    cases hraw : a.raw with
    | none =>
      rw [Attempt.Is, hraw] at hia
      have hf : firstFit t.length (a :: as) = firstFit t.length as := by rw [firstFit, hraw]
      have he : ∃ e, Wr.gwrite a.element.writeWrapped (pre ++ t) pre.length = .err e := by
        rw [Wr.gwrite]
        split
        · exact ⟨_, rfl⟩
        · obtain ⟨e, he⟩ := hia ((pre ++ t).drop pre.length)
          rw [he]
          exact ⟨_, rfl⟩
      obtain ⟨e, he⟩ := he
      obtain ⟨t', hl, h⟩ := ih pre (a.residue t)
      rw [hra] at hl h
      rw [hf, failing e he]
      exact ⟨t', hl, h⟩
    | some r =>
      rw [Attempt.Is, hraw] at hia
      have hw := WEmits.gwrite hia.emits
      have hmax : max ((tlv r).length + a.extra) slack = (tlv r).length + a.extra := by
        rw [tlv_length]
        omega
      rw [hmax] at hw
      by_cases hfit : (tlv r).length + a.extra ≤ t.length
      · have hf : firstFit t.length (a :: as) = (a.element, r) :: firstFit (t.length - (tlv r).length) as := by
          rw [firstFit, hraw]
          exact if_pos hfit
        have hok := hw.ok pre t hfit
        obtain ⟨t', hl, h⟩ := ih (pre ++ tlv r) (t.drop (tlv r).length)
        rw [List.length_drop] at hl h
        refine ⟨t', ?_, ?_⟩
        · rw [hf]
          simp only [List.map_cons, List.flatMap_cons, List.length_append]
          omega
        · rw [tryAll, DynamicManagementFrame.tryAddElement]
          simp only at hok
          simp only [hok]
          rw [← List.append_assoc, ← List.length_append, h, hf]
          simp only [Res.map, List.map_cons, List.flatMap_cons, List.append_assoc]
      · have hf : firstFit t.length (a :: as) = firstFit t.length as := by
          rw [firstFit, hraw]
          exact if_neg hfit
        obtain ⟨e, he⟩ := hw.err pre t (by omega)
        obtain ⟨t', hl, h⟩ := ih pre (a.residue t)
        rw [hra] at hl h
        rw [hf, failing e he]
        exact ⟨t', hl, h⟩

/-- Exactly which attempts succeed and what the frame is: those for which there is room after the ones before them, and
the bytes of these, in order, behind what was there. -/
theorem c82_exact (as : List Attempt) (hi : ∀ a ∈ as, a.Is) (hr : ∀ a ∈ as, a.KeepsLength)
    (d : DynamicManagementFrame) (hd : d.offset ≤ d.buffer.length) :
    let fit := firstFit (d.buffer.length - d.offset) as
    ∃ d', tryAll as d = .ok (fit.map Prod.fst, d') ∧
      soFar d' = soFar d ++ (fit.map Prod.snd).flatMap tlv ∧ d'.offset = (soFar d').length ∧
      d'.buffer.length = d.buffer.length := by
  obtain ⟨buf, off⟩ := d
  simp only at hd ⊢
  have e0 : (⟨buf, off⟩ : DynamicManagementFrame) = ⟨buf.take off ++ buf.drop off, (buf.take off).length⟩ := by
    rw [List.take_append_drop, List.length_take, Nat.min_eq_left hd]
  obtain ⟨t', hl, h⟩ := exact_loop as hi hr (buf.take off) (buf.drop off)
  rw [List.length_drop] at hl h
  refine ⟨_, e0 ▸ h, ?_, ?_, ?_⟩
  · simp only [soFar, List.take_left]
  · simp only [soFar, List.take_left]
  · simp only [List.length_append, List.length_take] at hl ⊢
    omega

/-- The whole run: a frame is written into a buffer, elements are tried, and the frame is finished.  What is sent is the
frame whose body ends with the elements that were accepted, with the check sequence over all of it if asked for; only if
there are fewer than four bytes left for that is there an error. -/
theorem c82_frame [Crc32] (s : ManagementFrameSubtype) (hs : ValidSubtype s) (h : ManagementFrameHeader) (w : Writer)
    (body : Bytes) (m : Nat) (hw : Emits w body m) (as : List Attempt) (hi : ∀ a ∈ as, a.Is)
    (hr : ∀ a ∈ as, a.KeepsLength) (fcs : Bool) (buf : Bytes)
    (hb : 2 + (mgmtHeaderWire h).length + max m slack ≤ buf.length) :
    let fit := firstFit (buf.length - (mgmtFrameWire s h body).length) as
    let frame := mgmtFrameWire s h (body ++ (fit.map Prod.snd).flatMap tlv)
    ∃ d d', intoDynamic s h w buf = .ok d ∧ tryAll as d = .ok (fit.map Prod.fst, d') ∧
      frame.length ≤ buf.length ∧
      (fcs = false ∨ frame.length + 4 ≤ buf.length → sentBy d' fcs = .ok (withFcs fcs frame)) ∧
      (fcs = true → buf.length < frame.length + 4 → ∃ e, sentBy d' fcs = .err e) := by
  intro fit frame
  have hsl := slack_le
  have he := c23_write s hs h w body m hw false
  have hlen : ∀ b, (mgmtFrameWire s h b).length = 2 + (mgmtHeaderWire h).length + b.length := by
    intro b
    simp [mgmtFrameWire]
    omega
  have hle := hw.le
  have hnew : intoDynamic s h w buf = .ok ⟨mgmtFrameWire s h body ++ buf.drop (mgmtFrameWire s h body).length,
      (mgmtFrameWire s h body).length⟩ := by
    have := (WEmits.gwrite he).ok [] buf (by simp only [hlen]; simp; omega)
    simp only [List.nil_append, List.length_nil, Nat.zero_add, withFcs] at this
    simp only [intoDynamic, DynamicManagementFrame.new, pwrite, this]
    rfl
  obtain ⟨t', hl, h1⟩ := exact_loop as hi hr (mgmtFrameWire s h body) (buf.drop (mgmtFrameWire s h body).length)
  rw [List.length_drop] at hl h1
  have hframe : mgmtFrameWire s h body ++ (fit.map Prod.snd).flatMap tlv = frame := by
    simp only [frame, mgmtFrameWire, List.append_assoc]
  have hbody := hlen body
  have hfl : frame.length + t'.length = buf.length := by
    rw [← hframe, List.length_append]
    simp only [fit]
    omega
  rw [show mgmtFrameWire s h body ++ _ = frame from hframe] at h1
  refine ⟨_, _, hnew, h1, by omega, fun hc => ?_, fun hc hlt => ?_⟩
  · cases fcs
    · simp [sentBy, DynamicManagementFrame.finish, Res.map, withFcs]
    · have h4 : frame.length + 4 ≤ buf.length := by simpa using hc
      have := (WEmits.gwrite (Emits.writeLE (Crc32.hash frame))).ok frame t' (by simp; omega)
      simp only [sentBy, DynamicManagementFrame.finish, if_true]
      rw [if_pos (by simp), List.take_left, this]
      simp only [Res.map, withFcs, if_true]
      rw [← List.append_assoc, ← List.length_append, List.take_left]
  · subst hc
    obtain ⟨e, he⟩ := (WEmits.gwrite (Emits.writeLE (Crc32.hash frame))).err frame t' (by simp; omega)
    simp only [sentBy, DynamicManagementFrame.finish, if_true]
    rw [if_pos (by simp), List.take_left, he]
    exact ⟨_, rfl⟩

/-! ## Examples -/

omit [ScrollRule] in
/-- Two attempts as in the hypotheses: a name of four bytes whose writer would leave the slice full of `0xaa`, and a
channel. -/
example (s : Bool) : letI : ScrollRule := ⟨s⟩
    let a : Attempt := ⟨⟨.Id 0, bytesObj [0x61, 0x62, 0x63, 0x64]⟩, fun b => List.replicate b.length 0xaa,
      some ⟨0, [0x61, 0x62, 0x63, 0x64]⟩, 0⟩
    let b : Attempt := ⟨⟨.Id 3, bytesObj [6]⟩, id, some ⟨3, [6]⟩, 0⟩
    a.Is ∧ a.KeepsLength ∧ b.Is ∧ b.KeepsLength ∧ (firstFit 5 [a, b]).map Prod.snd = [⟨3, [6]⟩] ∧
      (firstFit 6 [a, b]).map Prod.snd = [⟨0, [0x61, 0x62, 0x63, 0x64]⟩] ∧
      (firstFit 9 [a, b]).map Prod.snd = [⟨0, [0x61, 0x62, 0x63, 0x64]⟩, ⟨3, [6]⟩] := by
  letI : ScrollRule := ⟨s⟩
  have hsl := slack_le
  refine ⟨?_, fun b => by simp, ?_, fun b => rfl, rfl, rfl, rfl⟩
  · have := ItemOf.typed ⟨.Id 0, bytesObj [0x61, 0x62, 0x63, 0x64]⟩ [0x61, 0x62, 0x63, 0x64] 4 (Emits.bytes _) (by simp)
      rfl (by decide)
    rwa [show max 4 slack - ([0x61, 0x62, 0x63, 0x64] : Bytes).length = 0 by simp; omega] at this
  · have := ItemOf.typed ⟨.Id 3, bytesObj [6]⟩ [6] 1 (Emits.bytes _) (by simp) rfl (by decide)
    rwa [show max 1 slack - ([6] : Bytes).length = 0 by simp; omega] at this

omit [ScrollRule] in
/-- The first of them does not fit behind a frame of 24 bytes in a buffer of 33, the second one does, and after it there
is room for the check sequence: what the failed attempt left is overwritten or not sent. -/
example (s : Bool) : letI : ScrollRule := ⟨s⟩
    letI : Crc32 := ⟨fun b => BitVec.ofNat 32 b.length⟩
    let a : Attempt := ⟨⟨.Id 0, bytesObj [1, 2, 3, 4, 5, 6, 7, 8]⟩, fun b => List.replicate b.length 0xaa, none, 0⟩
    let b : Attempt := ⟨dsssElem ⟨6⟩, id, none, 0⟩
    ∃ d, tryAll [a, b] ⟨List.replicate 33 0, 24⟩ = .ok ([b.element], d) ∧
      d = ⟨List.replicate 24 0 ++ [3, 1, 6] ++ List.replicate 6 0xaa, 27⟩ ∧
      sentBy d true = .ok (List.replicate 24 0 ++ [3, 1, 6] ++ [27, 0, 0, 0]) := by
  cases s <;> exact ⟨_, rfl, by decide, by decide⟩

end Verif
