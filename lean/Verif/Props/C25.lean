import Verif.Props.C24
import Verif.Props.C48
/-!
# C25: frame matching
-/
namespace Verif

namespace Spec

/-- Subtype numbers of the management frames, IEEE 802.11 table 9-1. -/
def kindNumber : MgmtKind → Nat
  | .AssociationRequest => 0
  | .AssociationResponse => 1
  | .ProbeRequest => 4
  | .ProbeResponse => 5
  | .Beacon => 8
  | .Disassociation => 10
  | .Authentication => 11
  | .Deauthentication => 12
  | .RawAction | .VendorAction | .MeshPeeringOpen | .MeshPeeringConfirm | .MeshPeeringClose => 13

/-- What distinguishes the kinds of action frames: the category, then for the mesh peering frames the
action code.  A raw action frame may be any action frame. -/
def actionIs : MgmtKind → Byte → Bytes → Prop
  | .VendorAction, category, _ => category = 127
  | .MeshPeeringOpen, category, rest => category = 15 ∧ rest.head? = some 1
  | .MeshPeeringConfirm, category, rest => category = 15 ∧ rest.head? = some 2
  | .MeshPeeringClose, category, rest => category = 15 ∧ rest.head? = some 3
  | _, _, _ => True

/-- Bytes which are a management frame of this kind: type 0, its subtype; for action frames, a category
and action code after the header, which has four bytes more with the order flag. -/
def IsKind (k : MgmtKind) (bs : Bytes) : Prop :=
  ∃ (b0 b1 : Byte) (rest : Bytes), bs = b0 :: b1 :: rest ∧ b0.toNat / 4 % 4 = 0 ∧
    b0.toNat / 16 = kindNumber k ∧
    (kindNumber k = 13 → ∃ (c : Byte) (p : Bytes),
      bs.drop (if b1.toNat / 128 = 1 then 28 else 24) = c :: p ∧ actionIs k c p)

/-- Type 1 or 2, whatever the subtype. -/
def IsType (n : Nat) (bs : Bytes) : Prop := ∃ b0 rest, bs = b0 :: rest ∧ b0.toNat / 4 % 4 = n

end Spec

open Spec

variable [ScrollRule] [Crc32]

omit [ScrollRule] [Crc32] in
private theorem order_bit (f : FCFFlags) : f.order = true ↔ f.bits.toNat / 128 = 1 := by
  have := f.bits.isLt
  rw [FCFFlags.order, getBit, BitVec.getLsbD, Nat.testBit_eq_decide_div_mod_eq, decide_eq_true_iff]
  omega

omit [Crc32] in
theorem generic_fcf_cons (bs : Bytes) (hl : 10 ≤ bs.length) :
    ∃ b0 b1 rest f, bs = b0 :: b1 :: rest ∧ (GenericFrame.mk bs).frameControlField = .ok f ∧
      toLE f.bits = [b0, b1] ∧ typeNumbers f.frameType = (b0.toNat / 4 % 4, b0.toNat / 16) ∧
      f.fcfFlags.bits = b1 ∧ ValidFrameType f.frameType := by
  match bs, hl with
  | b0 :: b1 :: rest, hl =>
    obtain ⟨f, _, _, hf, hf', _⟩ := c24_always ⟨b0 :: b1 :: rest⟩ hl
    simp only [slice, List.drop_zero, List.take_succ_cons, List.take_zero] at hf'
    obtain ⟨c, h1, h2⟩ := fcf_of_bytes f.bits
    rw [hf'] at h1
    simp only [List.cons.injEq, and_true] at h1
    refine ⟨b0, b1, rest, f, rfl, hf, hf', ?_, h1.2.symm, c01_decode_valid _⟩
    rw [h1.1]; exact h2

/-- The raw action parse inside `matches`: it succeeds exactly when there is a category after the
header. -/
private theorem raw_action_pread (b0 b1 : Byte) (rest : Bytes) (f : FrameControlField)
    (hf : toLE f.bits = [b0, b1]) (ht : b0.toNat / 4 % 4 = 0) (hfl : f.fcfFlags.bits = b1)
    (htn : typeNumbers f.frameType = (b0.toNat / 4 % 4, b0.toNat / 16)) :
    match (b0 :: b1 :: rest).drop (if b1.toNat / 128 = 1 then 28 else 24) with
    | [] => ∃ e, pread (readMgmtFrame readRawAction false) 0 (b0 :: b1 :: rest) = .err e
    | c :: p => ∃ h, pread (readMgmtFrame readRawAction false) 0 (b0 :: b1 :: rest) =
        .ok (h, ⟨.fromBits c, p⟩) := by
  have hsl := slack_le
  obtain ⟨s, hs⟩ : ∃ s, f.frameType = .Management s := by
    cases h : f.frameType with
    | Management s => exact ⟨s, rfl⟩
    | _ => rw [h, ht] at htn; simp [typeNumbers] at htn
  have ho : (22 + if f.fcfFlags.order then 4 else 0) + 2 = if b1.toNat / 128 = 1 then 28 else 24 := by
    rw [← hfl]
    by_cases h : f.fcfFlags.order = true
    · rw [if_pos h, if_pos ((order_bit _).1 h)]
    · rw [if_neg h, if_neg (fun x => h ((order_bit _).2 x))]
  have hfix := c21_fixed f.fcfFlags rest
  generalize hn : (22 + if f.fcfFlags.order then 4 else 0) = n at ho hfix
  have hn0 : 22 ≤ n := by omega
  rw [← ho]
  simp only [List.drop_succ_cons]
  have key : pread (readMgmtFrame readRawAction false) 0 (b0 :: b1 :: rest) =
      (readMgmtFrameBody readRawAction (toLE f.bits ++ rest)).map Prod.fst := by
    rw [pread0, if_neg (by simp; omega), hf]
    rfl
  rw [key]
  by_cases hl : n ≤ rest.length
  · obtain ⟨h, hh⟩ := hfix.1 hl
    have hsplit : rest = rest.take n ++ rest.drop n := (List.take_append_drop _ _).symm
    have hlt : (rest.take n).length = n := by simp; omega
    cases hd : rest.drop n with
    | nil =>
      have : RdErr (do
          let f ← Rd.gread (readLE 16)
          let fcf : FrameControlField := ⟨f⟩
          match fcf.frameType with
          | .Management _ => do
            let header ← Rd.gread (readMgmtHeader fcf.fcfFlags)
            let body ← Rd.gread readRawAction
            pure (header, body)
          | _ => Rd.fail .badInput : Rd (ManagementFrameHeader × RawActionBody)) (toLE f.bits ++ rest) := by
        apply RdErr.bind_right (RdAt.gread (readLE_append rfl f.bits rest) (by simp; omega))
        simp only [hs]
        rw [hsplit]
        rw [hsplit] at hh
        apply RdErr.bind_right (RdAt.cast (RdAt.gread hh (by simp; omega)) hlt.symm)
        rw [hd]
        apply RdErr.bind_left
        intro pre
        obtain ⟨e, he⟩ := c48_raw_parse []
        simp only [Rd.gread, List.append_nil, List.drop_length, he]
        split <;> exact ⟨_, rfl⟩
      obtain ⟨e, he⟩ := RdErr.run this
      exact ⟨e, by rw [show readMgmtFrameBody readRawAction (toLE f.bits ++ rest) = .err e from he]; rfl⟩
    | cons c p =>
      have hr := c48_raw_parse (c :: p)
      obtain ⟨b, hb, _, _⟩ := hr
      have hb' : b = ⟨.fromBits c, p⟩ := by
        have : readRawAction (c :: p) = .ok (⟨.fromBits c, p⟩, 1) := by
          apply RdAt.run
          apply RdAt.cast
          · apply RdAt.u8
            exact RdAt.bind_pure RdAt.remaining rfl
          · rfl
        rw [hb] at this
        simpa using this
      refine ⟨h, ?_⟩
      have : readMgmtFrameBody readRawAction (toLE f.bits ++ rest) = .ok ((h, b), 2 + (n + 1)) := by
        apply RdAt.run
        apply RdAt.cast
        · apply RdAt.le (h := by decide) (hp := by decide)
          simp only [hs]
          rw [hsplit]
          rw [hsplit] at hh
          apply RdAt.bind (RdAt.cast (RdAt.gread hh (by simp; omega)) hlt.symm)
          rw [hd]
          exact RdAt.bind_pure (RdAt.gread hb (by simp; omega)) rfl
        · rw [hlt]
      rw [this, hb']
      rfl
  · obtain ⟨e, he⟩ := hfix.2 (by omega)
    rw [List.drop_eq_nil_of_le (by omega)]
    have : RdErr (do
        let f ← Rd.gread (readLE 16)
        let fcf : FrameControlField := ⟨f⟩
        match fcf.frameType with
        | .Management _ => do
          let header ← Rd.gread (readMgmtHeader fcf.fcfFlags)
          let body ← Rd.gread readRawAction
          pure (header, body)
        | _ => Rd.fail .badInput : Rd (ManagementFrameHeader × RawActionBody)) (toLE f.bits ++ rest) := by
      apply RdErr.bind_right (RdAt.gread (readLE_append rfl f.bits rest) (by simp; omega))
      simp only [hs]
      exact RdErr.bind_left (RdErr.gread he)
    obtain ⟨e, he⟩ := RdErr.run this
    exact ⟨e, by rw [show readMgmtFrameBody readRawAction (toLE f.bits ++ rest) = .err e from he]; rfl⟩

omit [Crc32] in
private theorem kind_numbers (k : MgmtKind) :
    ValidFrameType k.frame.type ∧ typeNumbers k.frame.type = (0, kindNumber k) := by
  refine ⟨?_, by cases k <;> rfl⟩
  refine ⟨by cases k <;> decide, by cases k <;> intro v hv <;> cases hv⟩

/-- A management frame kind matches exactly the frames of its kind; matching never panics. -/
theorem c25_mgmt (k : MgmtKind) (bs : Bytes) (hl : 10 ≤ bs.length) :
    ((GenericFrame.mk bs).matches k.frame = .ok true ↔ IsKind k bs) ∧
    ((GenericFrame.mk bs).matches k.frame = .ok false ↔ ¬ IsKind k bs) := by
  obtain ⟨b0, b1, rest, f, rfl, hf, hf', htn, hfl, hv⟩ := generic_fcf_cons bs hl
  obtain ⟨hkv, hkn⟩ := kind_numbers k
  suffices h : ∃ r, (GenericFrame.mk (b0 :: b1 :: rest)).matches k.frame = .ok r ∧
      (r = true ↔ IsKind k (b0 :: b1 :: rest)) by
    obtain ⟨r, hr, hr'⟩ := h
    rw [hr, ← hr']
    cases r <;> simp
  have hkind : IsKind k (b0 :: b1 :: rest) ↔ f.frameType = k.frame.type ∧
      (kindNumber k = 13 → ∃ (c : Byte) (p : Bytes),
        (b0 :: b1 :: rest).drop (if b1.toNat / 128 = 1 then 28 else 24) = c :: p ∧ actionIs k c p) := by
    constructor
    · rintro ⟨c0, c1, r, h, h1, h2, h3⟩
      obtain ⟨rfl, rfl, rfl⟩ : b0 = c0 ∧ b1 = c1 ∧ rest = r := by simpa using h
      refine ⟨typeNumbers_inj _ _ hv hkv ?_, h3⟩
      rw [htn, hkn, h1, h2]
    · rintro ⟨h1, h2⟩
      rw [h1, hkn] at htn
      simp only [Prod.mk.injEq] at htn
      exact ⟨b0, b1, rest, rfl, htn.1.symm, htn.2.symm, h2⟩
  by_cases ht : f.frameType = k.frame.type
  · by_cases hk : kindNumber k = 13
    · have ht0 : b0.toNat / 4 % 4 = 0 := by
        rw [ht, hkn] at htn
        exact (congrArg Prod.fst htn).symm
      have hraw := raw_action_pread b0 b1 rest f hf' ht0 hfl htn
      have hsub : k.frame.type = .Management .Action := by
        cases k <;> simp [kindNumber] at hk <;> rfl
      have hm : (GenericFrame.mk (b0 :: b1 :: rest)).matches k.frame = (do
          let r ← (pread (readMgmtFrame readRawAction false) 0 (b0 :: b1 :: rest)).toOption
          match r with
          | some (_, body) => pure (k.frame.actionMatches body)
          | none => pure false) := by
        simp only [GenericFrame.matches, hf, Res.ok_bind, ht, hsub, if_true]
        rfl
      rw [hm, hkind]
      cases hd : (b0 :: b1 :: rest).drop (if b1.toNat / 128 = 1 then 28 else 24) with
      | nil =>
        rw [hd] at hraw
        obtain ⟨e, he⟩ := hraw
        refine ⟨false, by simp [he], ?_⟩
        simp [hk]
      | cons c p =>
        rw [hd] at hraw
        obtain ⟨h, hh⟩ := hraw
        refine ⟨k.actionMatches ⟨.fromBits c, p⟩, by simp [hh]; rfl, ?_⟩
        have hcat : ∀ x : CategoryCode, x.Canonical → (CategoryCode.fromBits c = x ↔ c = x.intoBits) := by
          intro x hx
          constructor
          · rintro rfl; exact (CategoryCode.intoBits_fromBits c).symm
          · rintro rfl; exact CategoryCode.fromBits_intoBits x hx
        have hhead : ∀ b : Byte, (∃ q, p = b :: q) ↔ p.head? = some b := by
          intro b
          cases p <;> simp
        have h15 := hcat .SelfProtected (CategoryCode.canonical_fromBits 15)
        have h127 := hcat .VendorSpecific (CategoryCode.canonical_fromBits 127)
        simp only [ht, hk, true_implies, true_and, List.cons.injEq]
        have : (∃ c' p', (c = c' ∧ p = p') ∧ actionIs k c' p') ↔ actionIs k c p := by
          constructor
          · rintro ⟨_, _, ⟨rfl, rfl⟩, h⟩; exact h
          · intro h; exact ⟨_, _, ⟨rfl, rfl⟩, h⟩
        rw [this]
        cases k <;> simp [kindNumber] at hk
        · simp [MgmtKind.actionMatches, actionIs]
        · rw [MgmtKind.actionMatches, c48_match_vendor]; exact h127
        · rw [MgmtKind.actionMatches, c48_match_self_protected]
          simp only [h15, hhead]; exact Iff.rfl
        · rw [MgmtKind.actionMatches, c48_match_self_protected]
          simp only [h15, hhead]; exact Iff.rfl
        · rw [MgmtKind.actionMatches, c48_match_self_protected]
          simp only [h15, hhead]; exact Iff.rfl
    · refine ⟨true, ?_, ?_⟩
      · simp only [GenericFrame.matches, hf, Res.ok_bind, ht]
        cases k <;> first | rfl | exact absurd rfl hk
      · rw [hkind]; simp [ht, hk]
  · refine ⟨false, ?_, ?_⟩
    · simp only [GenericFrame.matches, hf, Res.ok_bind]
      split
      · rename_i h; cases k <;> cases h
      · rename_i h; cases k <;> cases h
      · rw [if_neg ht]; rfl
    · rw [hkind]; simp [ht]

/-- Control and data frames match by type. -/
theorem c25_control_data (bs : Bytes) (hl : 10 ≤ bs.length) :
    ((GenericFrame.mk bs).matches controlFrameKind = .ok true ↔ IsType 1 bs) ∧
    ((GenericFrame.mk bs).matches controlFrameKind = .ok false ↔ ¬ IsType 1 bs) ∧
    ((GenericFrame.mk bs).matches dataFrameKind = .ok true ↔ IsType 2 bs) ∧
    ((GenericFrame.mk bs).matches dataFrameKind = .ok false ↔ ¬ IsType 2 bs) := by
  obtain ⟨b0, b1, rest, f, rfl, hf, hf', htn, hfl, hv⟩ := generic_fcf_cons bs hl
  have hT : ∀ n, IsType n (b0 :: b1 :: rest) ↔ (typeNumbers f.frameType).1 = n := by
    intro n
    rw [htn]
    constructor
    · rintro ⟨c, r, h, rfl⟩
      rw [(List.cons.inj h).1]
    · intro h; exact ⟨b0, b1 :: rest, rfl, h⟩
  simp only [hT, GenericFrame.matches, hf, Res.ok_bind, controlFrameKind, dataFrameKind]
  cases f.frameType <;> simp [typeNumbers]

omit [ScrollRule] [Crc32] in
/-- Two different management frame kinds never both match, except that a raw action frame is any action
frame. -/
theorem c25_exclusive_partial (j k : MgmtKind) (hne : j ≠ k) (hj : j ≠ .RawAction) (hk : k ≠ .RawAction)
    (bs : Bytes) : ¬ (IsKind j bs ∧ IsKind k bs) := by
  rintro ⟨⟨b0, b1, rest, rfl, h1, h2, h3⟩, ⟨c0, c1, r, h, g1, g2, g3⟩⟩
  obtain ⟨rfl, rfl, rfl⟩ : b0 = c0 ∧ b1 = c1 ∧ rest = r := by simpa using h
  have hn : kindNumber j = kindNumber k := h2.symm.trans g2
  by_cases h13 : kindNumber j = 13
  · obtain ⟨c, p, hd, ha⟩ := h3 h13
    obtain ⟨c', p', hd', ha'⟩ := g3 (hn ▸ h13)
    rw [hd] at hd'
    obtain ⟨rfl, rfl⟩ := List.cons.inj hd'
    clear hd hd' h3 g3 h1 g1 h2 g2
    cases j <;> cases k <;> simp [kindNumber, actionIs] at * <;> simp_all
  · cases j <;> cases k <;> simp [kindNumber] at *

omit [ScrollRule] [Crc32] in
/-- Management, control and data frames exclude each other. -/
theorem c25_types_exclusive (k : MgmtKind) (bs : Bytes) :
    ¬ (IsKind k bs ∧ IsType 1 bs) ∧ ¬ (IsKind k bs ∧ IsType 2 bs) ∧ ¬ (IsType 1 bs ∧ IsType 2 bs) := by
  refine ⟨?_, ?_, ?_⟩
  · rintro ⟨⟨b0, b1, rest, rfl, h1, _⟩, ⟨c, r, h, h2⟩⟩
    rw [← (List.cons.inj h).1] at h2; omega
  · rintro ⟨⟨b0, b1, rest, rfl, h1, _⟩, ⟨c, r, h, h2⟩⟩
    rw [← (List.cons.inj h).1] at h2; omega
  · rintro ⟨⟨b0, rest, rfl, h1⟩, ⟨c, r, h, h2⟩⟩
    rw [← (List.cons.inj h).1] at h2; omega

omit [ScrollRule] [Crc32] in
/-- The documented overlap: a frame of any kind of action is a raw action frame as well. -/
theorem c25_raw_action_overlaps (k : MgmtKind) (h13 : kindNumber k = 13) (bs : Bytes) (h : IsKind k bs) :
    IsKind .RawAction bs := by
  obtain ⟨b0, b1, rest, rfl, h1, h2, h3⟩ := h
  obtain ⟨c, p, hd, _⟩ := h3 h13
  exact ⟨b0, b1, rest, rfl, h1, h2.trans h13, fun _ => ⟨c, p, hd, trivial⟩⟩

/-- `parse_to_typed`: nothing when the kind does not match, otherwise what the parser says about the
whole frame. -/
theorem c25_parse_to_typed {α : Type} (g : GenericFrame) (hl : 10 ≤ g.bytes.length) (k : FrameKind)
    (read : Bool → Reader α) (hsafe : ∀ inp, read false inp ≠ .panic) (m : Bool)
    (hm : g.matches k = .ok m) :
    g.parseToTyped k read = .ok (if m then some ((read false g.bytes).map Prod.fst) else none) := by
  have hsl := slack_le
  simp only [GenericFrame.parseToTyped, hm, Res.ok_bind]
  cases m
  · rfl
  · rw [if_pos rfl, pread0, if_neg (by omega)]
    cases h : read false g.bytes with
    | ok x => rfl
    | err e => rfl
    | panic => exact absurd h (hsafe _)

/-- The arms of `match_frames!`: the first arm whose kind matches decides. -/
theorem c25_arms {α : Type} (g : GenericFrame) (hl : 10 ≤ g.bytes.length)
    (pre : List (FrameKind × (Bool → Reader α))) (k : FrameKind) (read : Bool → Reader α)
    (post : List (FrameKind × (Bool → Reader α))) (i : Nat)
    (hpre : ∀ a ∈ pre, g.matches a.1 = .ok false) (hk : g.matches k = .ok true)
    (hsafe : ∀ a ∈ pre ++ [(k, read)], ∀ inp, a.2 false inp ≠ .panic) :
    tryArms g i (pre ++ (k, read) :: post) =
      (read false g.bytes).map fun r => (i + pre.length, r.1) := by
  induction pre generalizing i with
  | nil =>
    rw [List.nil_append, tryArms, c25_parse_to_typed g hl k read (hsafe (k, read) (by simp)) true hk]
    simp only [Res.ok_bind, if_true]
    cases read false g.bytes <;> rfl
  | cons a pre ih =>
    obtain ⟨k', r'⟩ := a
    rw [List.cons_append, tryArms, c25_parse_to_typed g hl k' r' (hsafe (k', r') (by simp)) false
      (hpre (k', r') (by simp))]
    simp only [Res.ok_bind, Bool.false_eq_true, if_false]
    rw [ih (i + 1) (fun a h => hpre a (by simp [h])) (fun a h => hsafe a (by
      simp only [List.cons_append, List.mem_cons]; exact Or.inr h))]
    simp only [List.length_cons]
    congr 1
    funext r
    rw [show i + 1 + pre.length = i + (pre.length + 1) by omega]

/-- When no kind matches it is an error. -/
theorem c25_no_arm {α : Type} (g : GenericFrame) (hl : 10 ≤ g.bytes.length)
    (arms : List (FrameKind × (Bool → Reader α))) (i : Nat)
    (h : ∀ a ∈ arms, g.matches a.1 = .ok false) (hsafe : ∀ a ∈ arms, ∀ inp, a.2 false inp ≠ .panic) :
    tryArms g i arms = .err .badInput := by
  induction arms generalizing i with
  | nil => rfl
  | cons a arms ih =>
    obtain ⟨k', r'⟩ := a
    rw [tryArms, c25_parse_to_typed g hl k' r' (hsafe (k', r') (by simp)) false (h (k', r') (by simp))]
    simp only [Res.ok_bind, Bool.false_eq_true, if_false]
    exact ih (i + 1) (fun a ha => h a (by simp [ha])) (fun a ha => hsafe a (by simp [ha]))

/-- The macro as a whole: without `with_fcs` the bytes are the frame, with it the check sequence is
verified and stripped first. -/
theorem c25_match_frames {α : Type} (frame : Bytes) (hl : 10 ≤ frame.length)
    (arms : List (FrameKind × (Bool → Reader α))) :
    matchFrames frame none arms = tryArms ⟨frame⟩ 0 arms ∧
    ∀ b, matchFrames (withFcs true frame) (some b) arms = tryArms ⟨frame⟩ 0 arms := by
  constructor
  · rw [matchFrames, (c24_new frame none.isSome ⟨frame⟩).2 ⟨rfl, hl⟩]
    rfl
  · intro b
    rw [matchFrames, Option.isSome_some, (c24_new _ true ⟨frame⟩).2 ⟨rfl, hl⟩]
    rfl

/-- Violation: the value given to `with_fcs:` is ignored, so `with_fcs: false` demands a check sequence
and refuses a frame without one. -/
theorem c25_with_fcs_false {α : Type} (body fcs : Bytes) (h4 : fcs.length = 4)
    (hne : fcs ≠ toLE (Crc32.hash body)) (arms : List (FrameKind × (Bool → Reader α))) :
    ∃ e, matchFrames (body ++ fcs) (some false) arms = .err e := by
  obtain ⟨e, he⟩ := c05_rejects body fcs h4 hne
  exact ⟨e, by simp only [matchFrames, GenericFrame.new, Option.isSome_some, if_true, he]; rfl⟩

/-- A concrete frame: a mesh peering open frame matches its kind and raw action, and nothing else. -/
example : let _ : Crc32 := ⟨fun bs => BitVec.ofNat 32 bs.length⟩
    let g : GenericFrame := ⟨[0xd0, 0, 0, 0, 1, 1, 1, 1, 1, 1, 2, 2, 2, 2, 2, 2, 3, 3, 3, 3, 3, 3, 0, 0,
      15, 1, 0, 0]⟩
    ([MgmtKind.Beacon, .RawAction, .VendorAction, .MeshPeeringOpen, .MeshPeeringConfirm,
      .MeshPeeringClose].map fun k => g.matches k.frame) =
      [.ok false, .ok true, .ok false, .ok true, .ok false, .ok false] ∧
    g.matches dataFrameKind = .ok false := by
  cases ‹ScrollRule› with | mk s => cases s <;> decide +kernel

end Verif
