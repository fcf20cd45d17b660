import Verif.Model.Elements.MeshPeering
import Verif.Lemmas.Elements
/-!
# C19: the mesh peering management element
-/
namespace Verif

namespace Spec

/-- The bytes behind protocol and local link ID: those of peer link ID, reason code and chosen PMK that
are present, in this order. -/
def peeringTail (peer : Option (BitVec 16)) (reason : Option IEEE80211Reason)
    (pmk : Option (Arr 16)) : Bytes :=
  (match peer with | some x => toLE x | none => []) ++
  (match reason with | some r => toLE r.intoBits | none => []) ++
  (match pmk with | some k => k.val | none => [])

/-- The payload of the element. -/
def peeringWire (q : ParsedMeshPeeringManagement) : Bytes :=
  toLE q.mesh_peering_protocol_identifier.intoBits ++ toLE q.local_link_id ++
    peeringTail q.peer_link_id q.reason_code q.pmk

/-- The element holds these bytes behind protocol and local link ID. -/
def HoldsTail (e : MeshPeeringManagement) (t : Bytes) : Prop :=
  t.length ≤ 20 ∧ e.rest_len = t.length ∧ e.rest.val = t ++ List.replicate (20 - t.length) 0

end Spec

open Spec

variable [ScrollRule]

omit [ScrollRule] in
private theorem build_ok (p : MeshPeeringProtocolIdentifier) (l : BitVec 16) {w : Wr Unit}
    {bs : Bytes} {n : Nat} (h : WEmits w () bs n) (hn : n ≤ 20) :
    ∃ e, MeshPeeringManagement.build p l w = .ok e ∧ e.mesh_peering_protocol_identifier = p ∧
      e.local_link_id = l ∧ HoldsTail e bs := by
  have h1 := h.ok [] (List.replicate 20 0) (by simpa using hn)
  have hl := h.le
  simp only [List.nil_append, List.length_nil, Nat.zero_add] at h1
  have h2 : (bs ++ (List.replicate 20 (0 : Byte)).drop bs.length).length = 20 := by simp; omega
  refine ⟨⟨p, l, ⟨_, h2⟩, bs.length⟩, ?_, rfl, rfl, ?_⟩
  · simp only [MeshPeeringManagement.build, h1]
    rw [dif_pos h2]
  · exact ⟨by omega, rfl, congrArg (bs ++ ·) List.drop_replicate⟩

private theorem putPmk_emits (k : Option (Arr 16)) :
    WEmits (MeshPeeringManagement.putPmk k) () (match k with | some k => k.val | none => [])
      (match k with | some _ => 16 | none => 0) := by
  cases k with
  | none => exact WEmits.pure
  | some k => exact (WEmits.gwrite_pos (Emits.bytes k.val) (by simp)).cast rfl (by simp)

private theorem putPeer_emits (k : Option (BitVec 16)) :
    WEmits (MeshPeeringManagement.putPeer k) () (match k with | some k => toLE k | none => [])
      (match k with | some _ => 2 | none => 0) := by
  cases k with
  | none => exact WEmits.pure
  | some k => exact (WEmits.gwrite_pos (Emits.writeLE k) (by decide)).cast rfl rfl

/-- The constructor for open elements does not panic; it keeps the fields given. -/
theorem c19_new_open (p : MeshPeeringProtocolIdentifier) (l : BitVec 16) (pmk : Option (Arr 16)) :
    ∃ e, MeshPeeringManagement.newOpen p l pmk = .ok e ∧ e.mesh_peering_protocol_identifier = p ∧
      e.local_link_id = l ∧ HoldsTail e (peeringTail none none pmk) := by
  refine build_ok p l ((putPmk_emits pmk).cast ?_ rfl) ?_
  · simp [peeringTail]
  · split <;> omega

/-- The constructor for confirm elements. -/
theorem c19_new_confirm (p : MeshPeeringProtocolIdentifier) (l peer : BitVec 16)
    (pmk : Option (Arr 16)) :
    ∃ e, MeshPeeringManagement.newConfirm p l peer pmk = .ok e ∧
      e.mesh_peering_protocol_identifier = p ∧ e.local_link_id = l ∧
      HoldsTail e (peeringTail (some peer) none pmk) := by
  refine build_ok p l ((WEmits.leI (putPmk_emits pmk)).cast ?_ rfl) ?_
  · simp [peeringTail]
  · split <;> omega

/-- The constructor for close elements. -/
theorem c19_new_close (p : MeshPeeringProtocolIdentifier) (l : BitVec 16)
    (peer : Option (BitVec 16)) (reason : IEEE80211Reason) (pmk : Option (Arr 16)) :
    ∃ e, MeshPeeringManagement.newClose p l peer reason pmk = .ok e ∧
      e.mesh_peering_protocol_identifier = p ∧ e.local_link_id = l ∧
      HoldsTail e (peeringTail peer (some reason) pmk) := by
  refine build_ok p l ((WEmits.bind (putPeer_emits peer)
    (WEmits.leI (putPmk_emits pmk))).cast ?_ rfl) ?_
  · simp [peeringTail]
  · cases peer <;> cases pmk <;> simp

/-- Writing an element: protocol and link ID, then the bytes it holds; the size is reported exactly.
(With the strict offset rule of `scroll`, an element without further bytes needs one byte of buffer more.) -/
theorem c19_write (e : MeshPeeringManagement) (t : Bytes) (h : HoldsTail e t) :
    Emits (writeMeshPeering e)
      (toLE e.mesh_peering_protocol_identifier.intoBits ++ toLE e.local_link_id ++ t)
      (4 + max t.length slack) ∧ e.measure = 4 + t.length := by
  obtain ⟨h1, h2, h3⟩ := h
  refine ⟨?_, by simp [MeshPeeringManagement.measure, h2]⟩
  apply Emits.cast
  · apply WEmits.run
    apply WEmits.leI (hp := by decide)
    apply WEmits.leI (hp := by decide)
    apply WEmits.lift_bind (a := t)
    · rw [h2, if_pos h1, h3, List.take_left]
    · exact WEmits.gwrite (Emits.bytes t)
  · simp
  · omega

/-- Parsing: exactly the inputs of four to twenty-four bytes are accepted; the element holds all bytes
from the fifth on. -/
theorem c19_read (p l : BitVec 16) (t : Bytes) (h : t.length ≤ 20) :
    ∃ e, readMeshPeering (toLE p ++ toLE l ++ t) = .ok (e, 4) ∧
      e.mesh_peering_protocol_identifier = .fromBits p ∧ e.local_link_id = l ∧ HoldsTail e t := by
  have hm : min 20 t.length = t.length := by omega
  have hr : meshPeeringRest t = .ok ⟨t ++ (List.replicate 20 0).drop (min 20 t.length),
      by simp; omega⟩ := by simp only [meshPeeringRest]; rw [dif_pos hm]
  refine ⟨⟨.fromBits p, l, ⟨t ++ (List.replicate 20 0).drop (min 20 t.length), by simp; omega⟩,
    min 20 t.length⟩, ?_, rfl, rfl, h, hm, ?_⟩
  · rw [List.append_assoc]
    apply RdAt.run
    apply RdAt.cast
    · apply RdAt.le (h := by decide) (hp := by decide)
      apply RdAt.le (h := by decide) (hp := by decide)
      apply RdAt.bind0 RdAt.remaining
      apply RdAt.bind0 (RdAt.lift hr)
      exact RdAt.pure
    · rfl
  · simp only [hm, List.drop_replicate]

/-- Less than four bytes are an error. -/
theorem c19_read_short (inp : Bytes) (h : inp.length < 4) : ∃ e, readMeshPeering inp = .err e := by
  refine Rd.Needs.run (n := 2 + 2) ?_ inp h
  refine Rd.Needs.bind (Rd.Adv.gread (readLE_fixed 16).adv) fun _ => ?_
  exact Rd.Needs.left (Rd.Needs.gread (readLE_fixed 16))

/-- Violation: any input of more than twenty-four bytes makes the parser panic. -/
theorem c19_read_long_panics (inp : Bytes) (h : 24 < inp.length) :
    readMeshPeering inp = .panic := by
  obtain ⟨p, r, rfl⟩ := exists_toLE 16 rfl (inp := inp) (by omega)
  simp only [List.length_append, toLE_length] at h
  obtain ⟨l, t, rfl⟩ := exists_toLE 16 rfl (inp := r) (by omega)
  simp only [List.length_append, toLE_length] at h
  have h1 : Rd.gread (readLE 16) (toLE p ++ (toLE l ++ t)) 0 = .ok (p, 2) := by
    have := RdAt.gread (readLE_append rfl p (toLE l ++ t)) (by have := slack_le; simp; omega) []
    simpa using this
  have h2 : Rd.gread (readLE 16) (toLE p ++ (toLE l ++ t)) 2 = .ok (l, 4) := by
    have := RdAt.gread (readLE_append rfl l t) (by have := slack_le; simp; omega) (toLE p)
    simpa using this
  have h3 : Rd.remaining (toLE p ++ (toLE l ++ t)) 4 = .ok (t, 4) := by
    have := RdAt.remaining (inp := t) (toLE p ++ toLE l)
    simpa using this
  have h4 : meshPeeringRest t = .panic := by
    simp only [meshPeeringRest]; rw [dif_neg (by omega)]
  show Rd.bind _ _ _ _ = _
  simp only [Rd.bind, h1]
  show Rd.bind _ _ _ _ = _
  simp only [Rd.bind, h2]
  show Rd.bind _ _ _ _ = _
  simp only [Rd.bind, h3]
  show Rd.bind _ _ _ _ = _
  simp only [Rd.bind, Rd.lift, h4, Res.bind]

/-- The parser does not panic on up to twenty-four bytes.  Missing for the full claim: longer inputs,
see `c19_read_long_panics`. -/
theorem c19_no_panic_partial (inp : Bytes) (h : inp.length ≤ 24) : readMeshPeering inp ≠ .panic := by
  by_cases h4 : inp.length < 4
  · obtain ⟨e, he⟩ := c19_read_short inp h4
    rw [he]; simp
  · obtain ⟨p, r, rfl⟩ := exists_toLE 16 rfl (inp := inp) (by omega)
    simp only [List.length_append, toLE_length] at h h4
    obtain ⟨l, t, rfl⟩ := exists_toLE 16 rfl (inp := r) (by omega)
    simp only [List.length_append, toLE_length] at h h4
    obtain ⟨e, he, -⟩ := c19_read p l t (by omega)
    rw [← List.append_assoc, he]; simp

omit [ScrollRule] in
private theorem parse_ok {α : Type} {e : MeshPeeringManagement} {r : Rd α} {inp : Bytes} {a : α}
    {n : Nat} (h : e.rest.val = inp) (hr : RdAt r inp a n) : e.parse r = .ok (some a) := by
  simp only [MeshPeeringManagement.parse, h, hr.run]

omit [ScrollRule] in
private theorem reason_rt {r : IEEE80211Reason} (h : r.Canonical) : .fromBits r.intoBits = r :=
  IEEE80211Reason.fromBits_intoBits r h

/-- Interpreting as open succeeds exactly when the element holds nothing or a PMK, and gives it back. -/
theorem c19_as_open (e : MeshPeeringManagement) (t : Bytes) (h : HoldsTail e t)
    (q : ParsedMeshPeeringManagement) :
    e.parseAsOpen = .ok (some q) ↔
      q.mesh_peering_protocol_identifier = e.mesh_peering_protocol_identifier ∧
      q.local_link_id = e.local_link_id ∧ q.peer_link_id = none ∧ q.reason_code = none ∧
      t = peeringTail none none q.pmk := by
  obtain ⟨h1, h2, h3⟩ := h
  obtain ⟨qp, ql, qe, qr, qk⟩ := q
  unfold MeshPeeringManagement.parseAsOpen
  by_cases h0 : t.length = 0
  · have ht : t = [] := List.eq_nil_of_length_eq_zero h0
    subst ht
    rw [if_pos (by simpa using h2)]
    cases qk with
    | none => simp [peeringTail]; grind
    | some k =>
      have := k.property
      constructor
      · intro h; simp at h
      · rintro ⟨-, -, -, -, h⟩
        have := congrArg List.length h
        simp [peeringTail] at this
  · rw [if_neg (by omega)]
    by_cases h16 : t.length = 16
    · rw [if_pos (by omega)]
      have := parse_ok (e := e) (r := do
        let pmk ← Rd.gread (readArr 16)
        pure (⟨e.mesh_peering_protocol_identifier, e.local_link_id, none, none, some pmk⟩ :
          ParsedMeshPeeringManagement)) h3 (by
          apply RdAt.arr (x := ⟨t, h16⟩)
          exact RdAt.pure)
      rw [this]
      cases qk with
      | none =>
        constructor
        · intro h; simp at h
        · rintro ⟨-, -, -, -, h⟩
          have := congrArg List.length h
          simp [peeringTail] at this
          simp [this] at h0
      | some k =>
        simp only [Res.ok.injEq, Option.some.injEq, ParsedMeshPeeringManagement.mk.injEq, peeringTail,
          List.nil_append]
        constructor
        · rintro ⟨rfl, rfl, rfl, rfl, rfl⟩; simp
        · rintro ⟨rfl, rfl, rfl, rfl, rfl⟩; simp
    · rw [if_neg (by omega)]
      constructor
      · intro h; simp at h
      · rintro ⟨-, -, -, -, rfl⟩
        cases qk <;> simp [peeringTail] at h0 h16

/-- Interpreting as confirm succeeds exactly when the element holds a peer link ID and perhaps a PMK,
and gives them back. -/
theorem c19_as_confirm (e : MeshPeeringManagement) (t : Bytes) (h : HoldsTail e t)
    (q : ParsedMeshPeeringManagement) :
    e.parseAsConfirm = .ok (some q) ↔
      q.mesh_peering_protocol_identifier = e.mesh_peering_protocol_identifier ∧
      q.local_link_id = e.local_link_id ∧ q.peer_link_id.isSome ∧ q.reason_code = none ∧
      t = peeringTail q.peer_link_id none q.pmk := by
  obtain ⟨h1, h2, h3⟩ := h
  obtain ⟨qp, ql, qe, qr, qk⟩ := q
  unfold MeshPeeringManagement.parseAsConfirm
  by_cases hlen : t.length = 2 ∨ t.length = 18
  · obtain ⟨peer, k, rfl⟩ := exists_toLE 16 rfl (inp := t) (by omega)
    simp only [List.length_append, toLE_length] at hlen h2 h1
    rcases hlen with hlen | hlen
    · have hk : k = [] := List.eq_nil_of_length_eq_zero (by omega)
      subst hk
      rw [if_pos (by simpa using h2)]
      rw [parse_ok h3 (by
        rw [List.append_nil]
        apply RdAt.le (h := by decide) (hp := by decide)
        exact RdAt.pure)]
      cases qe with
      | none => simp
      | some x =>
        cases qk with
        | none =>
          simp [peeringTail]
          constructor
          · rintro ⟨rfl, rfl, rfl, rfl⟩; simp
          · rintro ⟨rfl, rfl, rfl, h⟩
            exact ⟨rfl, rfl, toLE_inj rfl h, rfl⟩
        | some k =>
          simp [peeringTail]
          intro _ _ _ h
          have := congrArg List.length h
          simp at this
    · rw [if_neg (by omega), if_pos (by omega)]
      rw [parse_ok h3 (by
        rw [List.append_assoc]
        apply RdAt.le (h := by decide) (hp := by decide)
        apply RdAt.arr (x := ⟨k, by omega⟩)
        exact RdAt.pure)]
      cases qe with
      | none => simp
      | some x =>
        cases qk with
        | none =>
          simp [peeringTail]
          intro _ _ _ h
          have := congrArg List.length h
          simp only [List.length_append, toLE_length] at this
          omega
        | some k' =>
          simp [peeringTail]
          constructor
          · rintro ⟨rfl, rfl, rfl, rfl, rfl⟩; simp
          · rintro ⟨rfl, rfl, rfl, h⟩
            obtain ⟨ha, hb⟩ := List.append_inj h (by simp)
            exact ⟨rfl, rfl, toLE_inj rfl ha, rfl, by subst hb; rfl⟩
  · rw [if_neg (by omega), if_neg (by omega)]
    constructor
    · intro h; simp at h
    · rintro ⟨-, -, hs, -, rfl⟩
      simp only at hs
      obtain ⟨x, rfl⟩ := Option.isSome_iff_exists.1 hs
      cases qk <;> simp [peeringTail] at hlen

/-- Interpreting as close succeeds exactly when the element holds a reason code, perhaps a peer link ID
before it and perhaps a PMK after it, and gives them back. -/
theorem c19_as_close (e : MeshPeeringManagement) (t : Bytes) (h : HoldsTail e t)
    (q : ParsedMeshPeeringManagement) :
    e.parseAsClose = .ok (some q) ↔
      q.mesh_peering_protocol_identifier = e.mesh_peering_protocol_identifier ∧
      q.local_link_id = e.local_link_id ∧
      (∃ r : IEEE80211Reason, r.Canonical ∧ q.reason_code = some r) ∧
      t = peeringTail q.peer_link_id q.reason_code q.pmk := by
  obtain ⟨h1, h2, h3⟩ := h
  obtain ⟨qp, ql, qe, qr, qk⟩ := q
  unfold MeshPeeringManagement.parseAsClose
  by_cases hlen : t.length = 2 ∨ t.length = 4 ∨ t.length = 18 ∨ t.length = 20
  · -- the bytes as optional fields
    have hparts : ∃ (pe : Option (BitVec 16)) (re : BitVec 16) (pk : Option (Arr 16)),
        t = peeringTail pe (some (.fromBits re)) pk := by
      rcases hlen with hl | hl | hl | hl
      · obtain ⟨re, k, rfl⟩ := exists_toLE 16 rfl (inp := t) (by omega)
        simp only [List.length_append, toLE_length] at hl
        have hk : k = [] := List.eq_nil_of_length_eq_zero (by omega)
        exact ⟨none, re, none, by simp [peeringTail, IEEE80211Reason.intoBits_fromBits, hk]⟩
      · obtain ⟨pe, k, rfl⟩ := exists_toLE 16 rfl (inp := t) (by omega)
        simp only [List.length_append, toLE_length] at hl
        obtain ⟨re, k, rfl⟩ := exists_toLE 16 rfl (inp := k) (by omega)
        simp only [List.length_append, toLE_length] at hl
        have hk : k = [] := List.eq_nil_of_length_eq_zero (by omega)
        exact ⟨some pe, re, none, by simp [peeringTail, IEEE80211Reason.intoBits_fromBits, hk]⟩
      · obtain ⟨re, k, rfl⟩ := exists_toLE 16 rfl (inp := t) (by omega)
        simp only [List.length_append, toLE_length] at hl
        exact ⟨none, re, some ⟨k, by omega⟩, by
          simp [peeringTail, IEEE80211Reason.intoBits_fromBits]⟩
      · obtain ⟨pe, k, rfl⟩ := exists_toLE 16 rfl (inp := t) (by omega)
        simp only [List.length_append, toLE_length] at hl
        obtain ⟨re, k, rfl⟩ := exists_toLE 16 rfl (inp := k) (by omega)
        simp only [List.length_append, toLE_length] at hl
        exact ⟨some pe, re, some ⟨k, by omega⟩, by
          simp [peeringTail, IEEE80211Reason.intoBits_fromBits]⟩
    obtain ⟨pe, re, pk, rfl⟩ := hparts
    have key : e.parseAsClose = .ok (some ⟨e.mesh_peering_protocol_identifier, e.local_link_id, pe,
        some (.fromBits re), pk⟩) := by
      unfold MeshPeeringManagement.parseAsClose
      cases pe <;> cases pk <;>
        simp [peeringTail, IEEE80211Reason.intoBits_fromBits] at h2 h3 <;> simp only [h2] <;>
        simp <;> apply parse_ok h3
      · try simp only [List.append_assoc]
        apply RdAt.le (h := by decide) (hp := by decide)
        exact RdAt.pure
      · try simp only [List.append_assoc]
        apply RdAt.le (h := by decide) (hp := by decide)
        apply RdAt.arr (hp := by decide)
        exact RdAt.pure
      · try simp only [List.append_assoc]
        apply RdAt.le (h := by decide) (hp := by decide)
        apply RdAt.le (h := by decide) (hp := by decide)
        exact RdAt.pure
      · try simp only [List.append_assoc]
        rw [← List.append_nil (Subtype.val _)]
        apply RdAt.le (h := by decide) (hp := by decide)
        apply RdAt.le (h := by decide) (hp := by decide)
        apply RdAt.arr (hp := by decide)
        exact RdAt.pure
    unfold MeshPeeringManagement.parseAsClose at key
    rw [key]
    simp only [Res.ok.injEq, Option.some.injEq, ParsedMeshPeeringManagement.mk.injEq]
    constructor
    · rintro ⟨rfl, rfl, rfl, rfl, rfl⟩
      exact ⟨rfl, rfl, ⟨_, IEEE80211Reason.canonical_fromBits re, rfl⟩, rfl⟩
    · rintro ⟨rfl, rfl, ⟨r, hr, rfl⟩, ht⟩
      refine ⟨rfl, rfl, ?_⟩
      have hlen := congrArg List.length ht
      cases pe <;> cases qe <;> cases pk <;> cases qk <;>
        simp [peeringTail, IEEE80211Reason.intoBits_fromBits] at ht hlen ⊢
      · rw [toLE_inj rfl ht, IEEE80211Reason.fromBits_intoBits r hr]
      · obtain ⟨ha, hb⟩ := List.append_inj ht (by simp)
        rw [toLE_inj rfl ha, IEEE80211Reason.fromBits_intoBits r hr]
        exact ⟨rfl, Subtype.ext hb⟩
      · obtain ⟨ha, hb⟩ := List.append_inj ht (by simp)
        rw [toLE_inj rfl hb, IEEE80211Reason.fromBits_intoBits r hr]
        exact ⟨toLE_inj rfl ha, rfl⟩
      · obtain ⟨ha, hb⟩ := List.append_inj ht (by simp)
        obtain ⟨hb, hc⟩ := List.append_inj hb (by simp)
        rw [toLE_inj rfl hb, IEEE80211Reason.fromBits_intoBits r hr]
        exact ⟨toLE_inj rfl ha, rfl, Subtype.ext hc⟩
  · rw [if_neg (by omega), if_neg (by omega), if_neg (by omega), if_neg (by omega)]
    constructor
    · intro h; simp at h
    · rintro ⟨-, -, ⟨r, -, hr⟩, rfl⟩
      simp only at hr
      subst hr
      cases qe <;> cases qk <;> simp [peeringTail] at hlen

/-- None of the three interpretations panics. -/
theorem c19_as_no_panic (e : MeshPeeringManagement) :
    e.parseAsOpen ≠ .panic ∧ e.parseAsConfirm ≠ .panic ∧ e.parseAsClose ≠ .panic := by
  have key : ∀ {α : Type} {r : Rd α} {n : Nat}, Rd.Fixed r n → n ≤ 20 → e.parse r ≠ .panic := by
    intro α r n h hn
    obtain ⟨a, ha⟩ := (h.run e.rest.val).1 (by simpa using hn)
    simp [MeshPeeringManagement.parse, ha]
  refine ⟨?_, ?_, ?_⟩
  · unfold MeshPeeringManagement.parseAsOpen
    split
    · simp
    split
    · refine key (n := 16 + 0) ?_ (by omega)
      rd_fixed
    · simp
  · unfold MeshPeeringManagement.parseAsConfirm
    split
    · refine key (n := 2 + 0) ?_ (by omega)
      rd_fixed
    split
    · refine key (n := 2 + (16 + 0)) ?_ (by omega)
      rd_fixed
    · simp
  · unfold MeshPeeringManagement.parseAsClose
    split
    · refine key (n := 2 + 0) ?_ (by omega)
      rd_fixed
    split
    · refine key (n := 2 + (2 + 0)) ?_ (by omega)
      rd_fixed
    split
    · refine key (n := 2 + (16 + 0)) ?_ (by omega)
      rd_fixed
    split
    · refine key (n := 2 + (2 + (16 + 0))) ?_ (by omega)
      rd_fixed
    · simp

/-- Write then parse: an element holding at most twenty further bytes is parsed back as the same
element. -/
theorem c19_round_trip (e : MeshPeeringManagement) (t : Bytes) (h : HoldsTail e t)
    (hc : e.mesh_peering_protocol_identifier.Canonical) (buf : Bytes)
    (hb : 4 + max t.length slack ≤ buf.length) :
    ∃ out, writeMeshPeering e buf = .ok (out, e.measure) ∧
      readMeshPeering (out.take e.measure) = .ok (e, 4) := by
  obtain ⟨hw, hm⟩ := c19_write e t h
  have hlen : (toLE e.mesh_peering_protocol_identifier.intoBits ++ toLE e.local_link_id ++ t).length =
      e.measure := by rw [hm]; simp; omega
  refine ⟨_, by rw [hw.ok buf hb, hlen], ?_⟩
  obtain ⟨e', he, h1, h2, h3⟩ := c19_read e.mesh_peering_protocol_identifier.intoBits e.local_link_id t
    h.1
  have : e' = e := by
    obtain ⟨p, l, ⟨r, hr⟩, n⟩ := e
    obtain ⟨p', l', ⟨r', hr'⟩, n'⟩ := e'
    obtain ⟨-, a, b⟩ := h
    obtain ⟨-, c, d⟩ := h3
    simp only at a b c d h1 h2
    subst h2
    simp only [MeshPeeringProtocolIdentifier.fromBits_intoBits _ hc] at h1
    subst h1 a c
    congr 1
    exact Subtype.ext (d.trans b.symm)
  rw [← hlen, List.take_left, he, this]

/-- An open element, written and parsed, interpreted as open is what was given. -/
theorem c19_open (p : MeshPeeringProtocolIdentifier) (l : BitVec 16) (pmk : Option (Arr 16))
    (hc : p.Canonical) (buf : Bytes) (hb : 25 ≤ buf.length) :
    ∃ e out e' n, MeshPeeringManagement.newOpen p l pmk = .ok e ∧
      writeMeshPeering e buf = .ok (out, n) ∧
      out.take n = peeringWire ⟨p, l, none, none, pmk⟩ ∧
      readMeshPeering (out.take n) = .ok (e', 4) ∧
      e'.parseAsOpen = .ok (some ⟨p, l, none, none, pmk⟩) := by
  obtain ⟨e, he, h1, h2, h3⟩ := c19_new_open p l pmk
  have hsl := slack_le
  have ht := h3.1
  obtain ⟨out, hw, hr⟩ := c19_round_trip e _ h3 (h1 ▸ hc) buf (by omega)
  obtain ⟨hw', hm⟩ := c19_write e _ h3
  refine ⟨e, out, e, _, he, hw, ?_, hr, ?_⟩
  · rw [hw'.ok buf (by omega)] at hw
    simp only [Res.ok.injEq, Prod.mk.injEq] at hw
    obtain ⟨rfl, hn⟩ := hw
    rw [← hn, List.take_left, h1, h2, peeringWire]
  · exact (c19_as_open e _ h3 _).2 ⟨h1.symm, h2.symm, rfl, rfl, rfl⟩

/-- A confirm element, written and parsed, interpreted as confirm is what was given. -/
theorem c19_confirm (p : MeshPeeringProtocolIdentifier) (l peer : BitVec 16) (pmk : Option (Arr 16))
    (hc : p.Canonical) (buf : Bytes) (hb : 25 ≤ buf.length) :
    ∃ e out e' n, MeshPeeringManagement.newConfirm p l peer pmk = .ok e ∧
      writeMeshPeering e buf = .ok (out, n) ∧
      out.take n = peeringWire ⟨p, l, some peer, none, pmk⟩ ∧
      readMeshPeering (out.take n) = .ok (e', 4) ∧
      e'.parseAsConfirm = .ok (some ⟨p, l, some peer, none, pmk⟩) := by
  obtain ⟨e, he, h1, h2, h3⟩ := c19_new_confirm p l peer pmk
  have hsl := slack_le
  have ht := h3.1
  obtain ⟨out, hw, hr⟩ := c19_round_trip e _ h3 (h1 ▸ hc) buf (by omega)
  obtain ⟨hw', hm⟩ := c19_write e _ h3
  refine ⟨e, out, e, _, he, hw, ?_, hr, ?_⟩
  · rw [hw'.ok buf (by omega)] at hw
    simp only [Res.ok.injEq, Prod.mk.injEq] at hw
    obtain ⟨rfl, hn⟩ := hw
    rw [← hn, List.take_left, h1, h2, peeringWire]
  · exact (c19_as_confirm e _ h3 _).2 ⟨h1.symm, h2.symm, rfl, rfl, rfl⟩

/-- A close element, written and parsed, interpreted as close is what was given. -/
theorem c19_close (p : MeshPeeringProtocolIdentifier) (l : BitVec 16) (peer : Option (BitVec 16))
    (reason : IEEE80211Reason) (pmk : Option (Arr 16)) (hc : p.Canonical) (hr : reason.Canonical)
    (buf : Bytes) (hb : 25 ≤ buf.length) :
    ∃ e out e' n, MeshPeeringManagement.newClose p l peer reason pmk = .ok e ∧
      writeMeshPeering e buf = .ok (out, n) ∧
      out.take n = peeringWire ⟨p, l, peer, some reason, pmk⟩ ∧
      readMeshPeering (out.take n) = .ok (e', 4) ∧
      e'.parseAsClose = .ok (some ⟨p, l, peer, some reason, pmk⟩) := by
  obtain ⟨e, he, h1, h2, h3⟩ := c19_new_close p l peer reason pmk
  have hsl := slack_le
  have ht := h3.1
  obtain ⟨out, hw, hrd⟩ := c19_round_trip e _ h3 (h1 ▸ hc) buf (by omega)
  obtain ⟨hw', hm⟩ := c19_write e _ h3
  refine ⟨e, out, e, _, he, hw, ?_, hrd, ?_⟩
  · rw [hw'.ok buf (by omega)] at hw
    simp only [Res.ok.injEq, Prod.mk.injEq] at hw
    obtain ⟨rfl, hn⟩ := hw
    rw [← hn, List.take_left, h1, h2, peeringWire]
  · exact (c19_as_close e _ h3 _).2 ⟨h1.symm, h2.symm, ⟨reason, hr, rfl⟩, rfl⟩

/-- An element that can be interpreted as open can not be interpreted as confirm or close. -/
theorem c19_distinct (e : MeshPeeringManagement) (q : ParsedMeshPeeringManagement)
    (h : e.parseAsOpen = .ok (some q)) :
    e.parseAsConfirm = .ok none ∧ e.parseAsClose = .ok none := by
  have hl : e.rest_len = 0 ∨ e.rest_len = 16 := by
    unfold MeshPeeringManagement.parseAsOpen at h
    by_cases h0 : e.rest_len = 0
    · exact .inl h0
    · by_cases h1 : e.rest_len = 16
      · exact .inr h1
      · simp [h0, h1] at h
  unfold MeshPeeringManagement.parseAsConfirm MeshPeeringManagement.parseAsClose
  rcases hl with hl | hl <;> simp [hl]

/-- Confirm and close can not always be told apart: the format itself is ambiguous, the kind of frame decides. -/
theorem c19_confirm_close_ambiguous : ∃ (e : MeshPeeringManagement) (q q' : ParsedMeshPeeringManagement),
    MeshPeeringManagement.newConfirm .MeshPeeringManagementProtocol 1 52 none = .ok e ∧
    e.parseAsConfirm = .ok (some q) ∧ e.parseAsClose = .ok (some q') ∧
    q.peer_link_id = some 52 ∧ q'.reason_code = some .MeshPeeringCancelled := by
  cases ‹ScrollRule› with | mk s =>
  cases s <;>
  exact ⟨⟨.MeshPeeringManagementProtocol, 1, ⟨52 :: List.replicate 19 0, rfl⟩, 2⟩,
    ⟨.MeshPeeringManagementProtocol, 1, some 52, none, none⟩,
    ⟨.MeshPeeringManagementProtocol, 1, none, some .MeshPeeringCancelled, none⟩,
    by decide, by decide, by decide, rfl, rfl⟩

/-- The wrapped element as found in a frame: id 117, then the length, then the payload. -/
theorem c19_element (e : MeshPeeringManagement) (t : Bytes) (h : HoldsTail e t) :
    Emits (meshPeeringElem e).writeWrapped
      (117 :: BitVec.ofNat 8 (4 + t.length) ::
        (toLE e.mesh_peering_protocol_identifier.intoBits ++ toLE e.local_link_id ++ t))
      (6 + max t.length slack) := by
  obtain ⟨hw, hm⟩ := c19_write e t h
  have hl := h.1
  have := writeWrapped_emits (meshPeeringElem e) _ _ hw hw.le (by
    show e.measure = _; rw [hm]; simp; omega) (by simp [rawOf, meshPeeringElem]; omega)
  refine this.cast ?_ ?_
  · simp [tlv, rawOf, meshPeeringElem]; congr 1; omega
  · rw [tlv_length]; simp [rawOf, meshPeeringElem]; omega

/-- Concrete cases. -/
example : ∃ e, HoldsTail e [1, 2, 3, 4] ∧ e.mesh_peering_protocol_identifier.Canonical := by
  refine ⟨⟨.MeshPeeringManagementProtocol, 7, ⟨[1, 2, 3, 4] ++ List.replicate 16 0, rfl⟩, 4⟩,
    ⟨by decide, rfl, rfl⟩, ?_⟩
  simp [MeshPeeringProtocolIdentifier.Canonical]

example : (let _ : ScrollRule := ⟨true⟩
    readMeshPeering [1, 0, 7, 0, 9, 0]) =
    .ok (⟨.AuthenticatedMeshPeeringExchangeProtocol, 7, ⟨9 :: List.replicate 19 0, rfl⟩, 2⟩, 4) := by
  decide

end Verif
