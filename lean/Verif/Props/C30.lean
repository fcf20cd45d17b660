import Verif.Model.Frames.Data
import Verif.Basic.Tactics
import Verif.Basic.Inversion
import Verif.Lemmas.Frames
import Verif.Lemmas.Rsn
/-!
# C30: A-MSDU subframes

The wire form of a subframe is stated here by itself: two addresses, a length, the payload, and padding
to a multiple of four.
-/
namespace Verif

variable [ScrollRule]

namespace Spec

/-- The number of padding bytes after `n` bytes. -/
def padding (n : Nat) : Nat := (4 - n % 4) % 4

/-- A subframe as this library writes it, without the padding: the length is little-endian. -/
def subframeBody (s : AMSDUSubframe Bytes) : Bytes :=
  s.destination_address.val ++ (s.source_address.val ++ (toLE (BitVec.ofNat 16 s.payload.length) ++ s.payload))

/-- `bs` is a sequence of padded subframes; what the padding consists of is not said. -/
inductive SubframesOf : List (AMSDUSubframe Bytes) → Bytes → Prop where
  | nil : SubframesOf [] []
  | cons {s ss bs} (pad : Bytes) (hp : pad.length = padding (14 + s.payload.length)) (h : SubframesOf ss bs) :
      SubframesOf (s :: ss) (subframeBody s ++ (pad ++ bs))

/-- The payload is short enough for the length field. -/
def PayloadFits (s : AMSDUSubframe Bytes) : Prop := s.payload.length < 65536

/-- The total size with padding. -/
def paddedSize (ss : List (AMSDUSubframe Bytes)) : Nat :=
  (ss.map fun s => 14 + s.payload.length + padding (14 + s.payload.length)).sum

/-- The subframe as a value to be written: its payload is a byte string. -/
def toWrite (s : AMSDUSubframe Bytes) : AMSDUSubframe Obj :=
  ⟨s.destination_address, s.source_address, bytesObj s.payload⟩

end Spec

open Spec

omit [ScrollRule] in
private theorem roundUp4_eq (n : Nat) : roundUp4 n = n + padding n := by
  simp only [roundUp4, padding]; omega

omit [ScrollRule] in
theorem subframeBody_length (s : AMSDUSubframe Bytes) : (subframeBody s).length = 14 + s.payload.length := by
  have h1 := s.destination_address.property
  have h2 := s.source_address.property
  simp only [subframeBody, List.length_append, h1, h2, toLE_length]
  omega

/-- Reading one subframe. -/
theorem readSubframe_body (s : AMSDUSubframe Bytes) (hf : PayloadFits s) (rest : Bytes)
    (hr : s.payload = [] → slack ≤ rest.length) :
    readSubframe (subframeBody s ++ rest) =
      .ok (s, 14 + s.payload.length + padding (14 + s.payload.length)) := by
  have hs := slack_le
  have h : RdAt (do
    let destination_address ← Rd.gread readMac
    let source_address ← Rd.gread readMac
    let length ← Rd.gread (readLE 16)
    let payload ← Rd.gread (readBytes length.toNat)
    pure { destination_address, source_address, payload } : Rd (AMSDUSubframe Bytes)) (subframeBody s ++ rest) s
      (14 + s.payload.length) := by
    have hl : (BitVec.ofNat 16 s.payload.length).toNat = s.payload.length := by
      rw [BitVec.toNat_ofNat, Nat.mod_eq_of_lt hf]
    simp only [subframeBody, List.append_assoc]
    apply RdAt.cast
    · apply RdAt.arr
      apply RdAt.arr
      apply RdAt.le
      refine RdAt.bind_pure (a := s.payload) (k := s.payload.length) (RdAt.gread ?_ ?_) rfl
      · rw [hl]; exact readBytes_append _ _
      · cases hp : s.payload with
        | nil => simpa using hr hp
        | cons x r => simp; omega
      all_goals decide
    · omega
  simp only [readSubframe, RdAt.run h, Res.map, roundUp4_eq]

/-- Reading one subframe, backwards. -/
theorem readSubframe_parses (bs : Bytes) (s : AMSDUSubframe Bytes) (n : Nat) (h : readSubframe bs = .ok (s, n)) :
    n = 14 + s.payload.length + padding (14 + s.payload.length) ∧ PayloadFits s ∧
      ∃ rest, bs = subframeBody s ++ rest := by
  have hp : ParsesR (Rd.run (do
    let destination_address ← Rd.gread readMac
    let source_address ← Rd.gread readMac
    let length ← Rd.gread (readLE 16)
    let payload ← Rd.gread (readBytes length.toNat)
    pure { destination_address, source_address, payload } : Rd (AMSDUSubframe Bytes)))
      (fun s bs _ => bs = subframeBody s ∧ PayloadFits s) := by
    apply Parses.run
    refine Parses.imp (Parses.bind (Parses.gread' (readArr_parses 6)) fun _ =>
      Parses.bind (Parses.gread' (readArr_parses 6)) fun _ =>
      Parses.bind (Parses.gread' (readLE_parses 16 rfl)) fun l =>
      Parses.bind (Parses.gread' (readBytes_parses l.toNat)) fun _ => Parses.pure) ?_
    rintro s bs _ ⟨d, bs1, _, rfl, h1, ⟨sa, bs2, _, rfl, h2, ⟨l, bs3, _, rfl, h3, ⟨p, bs4, _, rfl, h4, rfl, rfl⟩⟩⟩⟩
    obtain ⟨h4, hlen⟩ := h4
    subst h1 h2 h3 h4
    have hl := l.isLt
    refine ⟨?_, ?_⟩
    · simp only [subframeBody, hlen, BitVec.ofNat_toNat, BitVec.setWidth_eq, List.append_nil]
    · simp only [PayloadFits, hlen]; omega
  simp only [readSubframe] at h
  cases hr : Rd.run (do
    let destination_address ← Rd.gread readMac
    let source_address ← Rd.gread readMac
    let length ← Rd.gread (readLE 16)
    let payload ← Rd.gread (readBytes length.toNat)
    pure { destination_address, source_address, payload } : Rd (AMSDUSubframe Bytes)) bs with
  | ok x =>
    obtain ⟨a, k⟩ := x
    rw [hr] at h
    simp only [Res.map, Res.ok.injEq, Prod.mk.injEq] at h
    obtain ⟨rfl, rfl⟩ := h
    obtain ⟨b, rest, h1, h2, h3, h4⟩ := hp bs a k hr
    refine ⟨?_, h4, rest, h3 ▸ h1⟩
    rw [roundUp4_eq, h2, h3, subframeBody_length]
  | err e => rw [hr] at h; simp [Res.map] at h
  | panic => rw [hr] at h; simp [Res.map] at h

theorem readSubframe_ne_panic (bs : Bytes) : readSubframe bs ≠ .panic := by
  have h : SafeReader (Rd.run (do
    let destination_address ← Rd.gread readMac
    let source_address ← Rd.gread readMac
    let length ← Rd.gread (readLE 16)
    let payload ← Rd.gread (readBytes length.toNat)
    pure { destination_address, source_address, payload } : Rd (AMSDUSubframe Bytes))) := by
    apply Rd.Safe.run
    rd_safe
  have := h.ne_panic bs
  simp only [readSubframe]
  intro he
  cases hr : Rd.run (do
    let destination_address ← Rd.gread readMac
    let source_address ← Rd.gread readMac
    let length ← Rd.gread (readLE 16)
    let payload ← Rd.gread (readBytes length.toNat)
    pure { destination_address, source_address, payload } : Rd (AMSDUSubframe Bytes)) bs with
  | ok x => rw [hr] at he; simp [Res.map] at he
  | err e => rw [hr] at he; simp [Res.map] at he
  | panic => exact this hr

/-- The iterator on one subframe. -/
theorem next_cons (s : AMSDUSubframe Bytes) (hf : PayloadFits s) (pad rest : Bytes)
    (hp : pad.length = padding (14 + s.payload.length)) :
    (SubframeIter.fromBytes (subframeBody s ++ (pad ++ rest))).next = .ok (some s, .fromBytes rest) := by
  have hs := slack_le
  have hb := subframeBody_length s
  have hr := readSubframe_body s hf (pad ++ rest) (by
    intro he
    rw [he] at hp
    simp only [List.length_nil, padding] at hp
    simp only [List.length_append]; omega)
  simp only [SubframeIter.next, SubframeIter.fromBytes, Rd.gread, badOff_eq]
  rw [if_neg (by simp only [List.length_append, hb]; simp; omega)]
  simp only [List.drop_zero, hr, Nat.zero_add]
  rw [if_pos (by simp only [List.length_append, hb]; omega)]
  rw [← List.append_assoc, List.drop_left' (by simp [hb, hp])]

private theorem next_nil : (SubframeIter.fromBytes []).next = .ok (none, ⟨none⟩) := by
  simp only [SubframeIter.next, SubframeIter.fromBytes, Rd.gread, badOff_eq]
  cases ‹ScrollRule› with | mk s => cases s <;> rfl

/-- A sequence of padded subframes is iterated as those subframes, in order. -/
theorem c30_iterate (ss : List (AMSDUSubframe Bytes)) (bs : Bytes) (h : SubframesOf ss bs)
    (hf : ∀ s ∈ ss, PayloadFits s) (fuel : Nat) (hfuel : ss.length < fuel) :
    (SubframeIter.fromBytes bs).collect fuel = .ok ss := by
  induction h generalizing fuel with
  | nil =>
    obtain ⟨k, rfl⟩ : ∃ k, fuel = k + 1 := ⟨fuel - 1, by simp at hfuel; omega⟩
    simp only [SubframeIter.collect, next_nil]
    rfl
  | cons pad hp h ih =>
    rename_i s ss bs
    obtain ⟨k, rfl⟩ : ∃ k, fuel = k + 1 := ⟨fuel - 1, by simp at hfuel; omega⟩
    have := ih (fun s hs => hf s (List.mem_cons_of_mem _ hs)) k (by simp at hfuel; omega)
    simp only [SubframeIter.collect, next_cons s (hf s List.mem_cons_self) pad bs hp]
    show (do let r ← SubframeIter.collect k (.fromBytes bs); pure (s :: r)) = _
    rw [this]
    rfl

/-! ## Writing -/

theorem subframe_inner_emits (s : AMSDUSubframe Bytes) : WEmits (do
    Wr.gwrite (writeBytes s.destination_address.val)
    Wr.gwrite (writeBytes s.source_address.val)
    Wr.gwrite (writeLE (BitVec.ofNat 16 s.payload.length))
    Wr.gwrite (writeBytes s.payload)) () (subframeBody s) (14 + max s.payload.length slack) := by
  refine (WEmits.arr (WEmits.arr (WEmits.leI (WEmits.gwrite (Emits.bytes s.payload))))).cast rfl ?_
  omega

theorem writeSubframe_ok (s : AMSDUSubframe Bytes) (buf : Bytes)
    (hb : 14 + max s.payload.length slack ≤ buf.length) :
    writeSubframe (toWrite s) buf = .ok (subframeBody s ++ buf.drop (subframeBody s).length,
      14 + s.payload.length + padding (14 + s.payload.length)) := by
  have := (subframe_inner_emits s).run.ok buf hb
  simp only [writeSubframe, toWrite, bytesObj, this, Res.map, roundUp4_eq, subframeBody_length]

omit [ScrollRule] in
theorem paddedSize_cons (s : AMSDUSubframe Bytes) (ss : List (AMSDUSubframe Bytes)) :
    paddedSize (s :: ss) = 14 + s.payload.length + padding (14 + s.payload.length) + paddedSize ss := by
  simp [paddedSize]

private theorem write_loop (ss : List (AMSDUSubframe Bytes)) : ∀ (pre buf : Bytes), paddedSize ss ≤ buf.length →
    ∃ bs, SubframesOf ss bs ∧ bs.length = paddedSize ss ∧
      ((ss.map toWrite).forM fun s => Wr.gwrite (writeSubframe s)) (pre ++ buf) pre.length =
        .ok ((), pre ++ (bs ++ buf.drop bs.length), pre.length + bs.length) := by
  induction ss with
  | nil =>
    intro pre buf _
    refine ⟨[], .nil, rfl, ?_⟩
    show Wr.pure () _ _ = _
    simp [Wr.pure]
  | cons s ss ih =>
    intro pre buf hb
    have hs := slack_le
    rw [paddedSize_cons] at hb
    have hpad : 14 + max s.payload.length slack ≤ 14 + s.payload.length + padding (14 + s.payload.length) := by
      simp only [padding]; omega
    have hbl := subframeBody_length s
    have hw := writeSubframe_ok s buf (by omega)
    generalize hpl : padding (14 + s.payload.length) = p at *
    let pad := (buf.drop (subframeBody s).length).take p
    have hpadl : pad.length = p := by simp only [pad, List.length_take, List.length_drop]; omega
    obtain ⟨bs, h1, h2, h3⟩ := ih (pre ++ (subframeBody s ++ pad)) (buf.drop (14 + s.payload.length + p))
      (by simp only [List.length_drop]; omega)
    refine ⟨subframeBody s ++ (pad ++ bs), .cons pad (hpadl.trans hpl.symm) h1, ?_, ?_⟩
    · rw [paddedSize_cons, hpl]
      simp only [List.length_append, hbl, hpadl, h2]; omega
    · show Wr.bind (Wr.gwrite (writeSubframe (toWrite s))) (fun _ => (ss.map toWrite).forM _) _ _ = _
      have hsplit : subframeBody s ++ buf.drop (subframeBody s).length =
          (subframeBody s ++ pad) ++ buf.drop (14 + s.payload.length + p) := by
        rw [List.append_assoc]
        congr 1
        conv => lhs; rw [← List.take_append_drop p (buf.drop (subframeBody s).length)]
        rw [List.drop_drop]
        simp only [pad, hbl]
      have hg : Wr.gwrite (writeSubframe (toWrite s)) (pre ++ buf) pre.length =
          .ok ((), (pre ++ (subframeBody s ++ pad)) ++ buf.drop (14 + s.payload.length + p),
            (pre ++ (subframeBody s ++ pad)).length) := by
        simp only [Wr.gwrite, badOff_eq, List.length_append, List.drop_left, List.take_left]
        rw [if_neg (by simp; omega), hw, hsplit]
        simp only [List.append_assoc, hbl, hpadl]
      simp only [Wr.bind, hg]
      rw [h3]
      simp only [List.append_assoc, List.length_append, hbl, hpadl, List.drop_drop]
      congr 3
      · congr 5; omega
      · omega

/-- Writing a sequence of subframes into a buffer with room for it gives a sequence of padded subframes,
and the number of its bytes. -/
theorem c30_write (ss : List (AMSDUSubframe Bytes)) (buf : Bytes) (hb : paddedSize ss ≤ buf.length) :
    ∃ bs, SubframesOf ss bs ∧ bs.length = paddedSize ss ∧
      writeAmsdu (ss.map toWrite) buf = .ok (bs ++ buf.drop bs.length, bs.length) := by
  obtain ⟨bs, h1, h2, h3⟩ := write_loop ss [] buf hb
  refine ⟨bs, h1, h2, ?_⟩
  simp only [List.nil_append, List.length_nil, Nat.zero_add] at h3
  simp only [writeAmsdu, Wr.run, h3]

/-- So what is written is read back.  (The full statement has no bound on the payloads: see
`c30_length_wraps`.) -/
theorem c30_round_trip_partial (ss : List (AMSDUSubframe Bytes)) (hf : ∀ s ∈ ss, PayloadFits s) (buf : Bytes)
    (hb : paddedSize ss ≤ buf.length) :
    ∃ buf' n, writeAmsdu (ss.map toWrite) buf = .ok (buf', n) ∧
      (SubframeIter.fromBytes (buf'.take n)).collect (ss.length + 1) = .ok ss := by
  obtain ⟨bs, h1, h2, h3⟩ := c30_write ss buf hb
  refine ⟨_, _, h3, ?_⟩
  rw [List.take_left]
  exact c30_iterate ss bs h1 hf _ (Nat.lt_succ_self _)

/-! ## Size -/

omit [ScrollRule] in
private theorem measure_eq (ss : List (AMSDUSubframe Bytes)) :
    measureAmsdu (ss.map toWrite) = (ss.map fun s => 14 + s.payload.length).sum := by
  simp only [measureAmsdu, List.map_map]
  rfl

omit [ScrollRule] in
/-- The size reported is the size written exactly when no subframe needs padding. -/
theorem c30_measure (ss : List (AMSDUSubframe Bytes)) :
    measureAmsdu (ss.map toWrite) = paddedSize ss ↔ ∀ s ∈ ss, (14 + s.payload.length) % 4 = 0 := by
  rw [measure_eq]
  have hle : ∀ ss : List (AMSDUSubframe Bytes), (ss.map fun s => 14 + s.payload.length).sum ≤ paddedSize ss := by
    intro ss
    induction ss with
    | nil => simp [paddedSize]
    | cons s ss ih => rw [paddedSize_cons]; simp only [List.map_cons, List.sum_cons]; omega
  induction ss with
  | nil => simp [paddedSize]
  | cons s ss ih =>
    have := hle ss
    rw [paddedSize_cons]
    simp only [List.map_cons, List.sum_cons, List.forall_mem_cons, ← ih, padding]
    omega

omit [ScrollRule] in
/-- Violation: the size reported is too small for a subframe with one byte of payload. -/
theorem c30_measure_wrong :
    ∃ s : AMSDUSubframe Bytes, measureAmsdu ([s].map toWrite) = 15 ∧ paddedSize [s] = 16 :=
  ⟨⟨⟨[1, 1, 1, 1, 1, 1], rfl⟩, ⟨[2, 2, 2, 2, 2, 2], rfl⟩, [7]⟩, rfl, rfl⟩

/-- Violation: given a buffer of the size reported, the writer succeeds and reports more bytes than the
buffer has. -/
theorem c30_write_beyond (d s : Mac) (x : Byte) (buf : Bytes) (hb : buf.length = 15) :
    ∃ buf', writeAmsdu ([⟨d, s, [x]⟩].map toWrite) buf = .ok (buf', 16) ∧ buf'.length = 15 := by
  have hs := slack_le
  have hw := writeSubframe_ok ⟨d, s, [x]⟩ buf (by simp; omega)
  refine ⟨subframeBody ⟨d, s, [x]⟩ ++ buf.drop (subframeBody ⟨d, s, [x]⟩).length, ?_, ?_⟩
  · simp only [writeAmsdu, Wr.run]
    have : ([⟨d, s, [x]⟩].map toWrite).forM (fun s => Wr.gwrite (writeSubframe s)) buf 0 =
        .ok ((), subframeBody ⟨d, s, [x]⟩ ++ buf.drop (subframeBody ⟨d, s, [x]⟩).length, 16) := by
      show Wr.bind (Wr.gwrite (writeSubframe (toWrite ⟨d, s, [x]⟩))) (fun _ => Wr.pure ()) _ _ = _
      simp only [Wr.bind, Wr.gwrite, badOff_eq]
      rw [if_neg (by simp; omega)]
      simp only [List.drop_zero, hw, List.take_zero, List.nil_append, List.length_cons, List.length_nil, padding]
      rfl
    rw [this]
  · simp [subframeBody_length, hb]

/-! ## Arbitrary bytes -/

/-- What one step does on any bytes: it ends, or there is a subframe; then it panics exactly when the
bytes end inside the padding. -/
theorem c30_next (bs : Bytes) :
    (SubframeIter.fromBytes bs).next = .ok (none, ⟨none⟩) ∨
    ∃ s rest, bs = subframeBody s ++ rest ∧ PayloadFits s ∧
      (SubframeIter.fromBytes bs).next =
        if padding (14 + s.payload.length) ≤ rest.length
        then .ok (some s, .fromBytes (rest.drop (padding (14 + s.payload.length)))) else .panic := by
  simp only [SubframeIter.next, SubframeIter.fromBytes, Rd.gread, badOff_eq]
  by_cases hb : bs.length < 0 + slack
  · left; rw [if_pos (by simpa using hb)]
  · rw [if_neg (by simpa using hb), List.drop_zero]
    cases hr : readSubframe bs with
    | ok x =>
      obtain ⟨s, n⟩ := x
      obtain ⟨h1, h2, rest, h3⟩ := readSubframe_parses bs s n hr
      refine Or.inr ⟨s, rest, h3, h2, ?_⟩
      have hl : bs.length = 14 + s.payload.length + rest.length := by
        rw [h3, List.length_append, subframeBody_length]
      simp only [Nat.zero_add]
      by_cases hp : padding (14 + s.payload.length) ≤ rest.length
      · rw [if_pos (by omega), if_pos hp, h1, h3, ← List.drop_drop,
          List.drop_left' (subframeBody_length s)]
      · rw [if_neg (by omega), if_neg hp]
    | err e => exact Or.inl rfl
    | panic => exact absurd hr (readSubframe_ne_panic bs)

/-- Iteration over bytes whose number is a multiple of four does not panic.  (The full statement is for
all bytes: see `c30_unpadded_panics`.) -/
theorem c30_no_panic_partial (fuel : Nat) : ∀ bs : Bytes, bs.length % 4 = 0 →
    (SubframeIter.fromBytes bs).collect fuel ≠ .panic := by
  induction fuel with
  | zero => intro bs _; simp [SubframeIter.collect]
  | succ k ih =>
    intro bs hb
    simp only [SubframeIter.collect]
    rcases c30_next bs with h | ⟨s, rest, h1, h2, h3⟩
    · rw [h]; exact fun e => by cases e
    · have hl : bs.length = 14 + s.payload.length + rest.length := by
        rw [h1, List.length_append, subframeBody_length]
      have hp : padding (14 + s.payload.length) ≤ rest.length := by simp only [padding]; omega
      rw [if_pos hp] at h3
      rw [h3]
      show (do let r ← SubframeIter.collect k _; pure (s :: r)) ≠ _
      have := ih (rest.drop (padding (14 + s.payload.length))) (by
        simp only [List.length_drop, padding] at hp ⊢; omega)
      cases hc : SubframeIter.collect k (.fromBytes (rest.drop (padding (14 + s.payload.length)))) with
      | ok r => exact fun e => by cases e
      | err e => exact fun e => by cases e
      | panic => exact absurd hc this

/-- Violation: the standard does not pad the last subframe; iteration over it panics, unless its size is
a multiple of four by itself. -/
theorem c30_unpadded_panics (s : AMSDUSubframe Bytes) (hf : PayloadFits s) (hne : s.payload ≠ [])
    (hl : (14 + s.payload.length) % 4 ≠ 0) (fuel : Nat) :
    (SubframeIter.fromBytes (subframeBody s)).collect (fuel + 1) = .panic := by
  have hs := slack_le
  have hb := subframeBody_length s
  have hr := readSubframe_body s hf [] (fun e => absurd e hne)
  rw [List.append_nil] at hr
  have : (SubframeIter.fromBytes (subframeBody s)).next = .panic := by
    simp only [SubframeIter.next, SubframeIter.fromBytes, Rd.gread, badOff_eq]
    rw [if_neg (by rw [hb]; simp; omega)]
    simp only [List.drop_zero, hr, Nat.zero_add]
    rw [if_neg (by rw [hb]; simp only [padding]; omega)]
  simp only [SubframeIter.collect, this]
  rfl

example : (14 + ([1] : Bytes).length) % 4 ≠ 0 := by decide

/-! ## The length field -/

omit [ScrollRule] in
/-- Violation: the length field is little-endian; the standard has it big-endian, so a payload of one
byte is announced as one of 256 bytes. -/
theorem c30_length_little_endian (d s : Mac) (x : Byte) :
    ((subframeBody ⟨d, s, [x]⟩).drop 12).take 2 = [1, 0] ∧
      toBE (BitVec.ofNat 16 1) = [0, 1] := by
  refine ⟨?_, by decide⟩
  have h1 := d.property
  have h2 := s.property
  rw [subframeBody, ← List.append_assoc, List.drop_left' (by simp [h1, h2])]
  exact List.take_left' (l₁ := toLE (BitVec.ofNat 16 1)) (by decide)

/-- Violation: a payload of 65536 bytes or more is written with its length reduced modulo 65536. -/
theorem c30_length_wraps (d s : Mac) (p : Bytes) (hp : p.length = 65536) :
    ((subframeBody ⟨d, s, p⟩).drop 12).take 2 = [0, 0] ∧
    ∀ buf : Bytes, paddedSize [⟨d, s, p⟩] ≤ buf.length →
      (writeAmsdu ([⟨d, s, p⟩].map toWrite) buf).isOk = true := by
  constructor
  · have h1 := d.property
    have h2 := s.property
    rw [subframeBody, ← List.append_assoc, List.drop_left' (by simp [h1, h2])]
    simp only [hp]
    exact List.take_left' (by rw [toLE_length])
  · intro buf hb
    obtain ⟨bs, _, _, h⟩ := c30_write [⟨d, s, p⟩] buf hb
    rw [h]
    rfl

example : (List.replicate 65536 (0 : Byte)).length = 65536 := List.length_replicate

/-- A sequence which is written and read back. -/
example : SubframesOf [⟨⟨[1, 1, 1, 1, 1, 1], rfl⟩, ⟨[2, 2, 2, 2, 2, 2], rfl⟩, [7]⟩,
      ⟨⟨[3, 3, 3, 3, 3, 3], rfl⟩, ⟨[4, 4, 4, 4, 4, 4], rfl⟩, [8, 9]⟩]
    [1, 1, 1, 1, 1, 1, 2, 2, 2, 2, 2, 2, 1, 0, 7, 0xff, 3, 3, 3, 3, 3, 3, 4, 4, 4, 4, 4, 4, 2, 0, 8, 9] :=
  .cons (s := ⟨⟨[1, 1, 1, 1, 1, 1], rfl⟩, ⟨[2, 2, 2, 2, 2, 2], rfl⟩, [7]⟩) [0xff] rfl
    (.cons (s := ⟨⟨[3, 3, 3, 3, 3, 3], rfl⟩, ⟨[4, 4, 4, 4, 4, 4], rfl⟩, [8, 9]⟩) [] rfl .nil)

end Verif
