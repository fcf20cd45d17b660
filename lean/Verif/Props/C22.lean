import Verif.Lemmas.Frames
import Verif.Props.C04
/-!
# C22: management frame bodies
-/
namespace Verif

namespace Spec

/-- A body made of `n` bytes of fixed fields and elements.

`get` and `set` access the element container, `fixed` gives the bytes of the fixed fields, `valid` says
that these have a canonical value (one the parser can return), `need` gives the buffer
size required from that of the elements.  `same` relates the fixed fields of a received body to
those of the parsed one: equality, except for association IDs. -/
structure BodyOf [ScrollRule] {β : Type → Type} (read : Reader (β Bytes)) (write : β Obj → Writer)
    (get : (ε : Type) → β ε → ε) (set : (ε δ : Type) → β ε → δ → β δ)
    (fixed : (ε : Type) → β ε → Bytes) (valid : β Bytes → Prop) (n : Nat) (need : Nat → Nat)
    (same : Bytes → Bytes → Prop) : Prop where
  get_set : ∀ (b : β Obj) (e : Bytes), get _ (set _ _ b e) = e
  fixed_set : ∀ (b : β Obj) (e : Bytes), fixed _ (set _ _ b e) = fixed _ b
  size : ∀ b : β Bytes, (fixed _ b).length = n
  writes : ∀ (b : β Obj) (e : Bytes) (m : Nat), Emits (get _ b).write e m →
    Emits (write b) (fixed _ b ++ e) (need m)
  reads : ∀ b : β Bytes, valid b → slack ≤ (get _ b).length →
    read (fixed _ b ++ get _ b) = .ok (b, n + (get _ b).length)
  short : ∀ inp : Bytes, inp.length < n + slack → ∃ x, read inp = .err x
  parse : ∀ (inp : Bytes) (b : β Bytes) (k : Nat), read inp = .ok (b, k) →
    ∃ f, inp = f ++ get _ b ∧ f.length = n ∧ same f (fixed _ b) ∧ k = inp.length ∧ valid b
  safe : ∀ inp, read inp ≠ .panic

/-- An association ID as the library constructs it: 1 to 2007 with the two top bits set. -/
def IsAid (a : AssociationID) : Prop := 0xc001 ≤ a.bits.toNat ∧ a.bits.toNat ≤ 0xc000 + 2007

/-- Equal, but for the two top bits of the association ID at offset `k`, which are set in the second. -/
def SameAid (k : Nat) (f g : Bytes) : Prop :=
  f.take k = g.take k ∧ f.length = g.length ∧
    (fromLE 16 (g.drop k)).toNat = 0xc000 + (fromLE 16 (f.drop k)).toNat % 2 ^ 14

end Spec

open Spec

variable [ScrollRule]

/-- Writing a body and reading the written bytes gives the same fixed fields and the element bytes. -/
theorem c22_round_trip_partial {β : Type → Type} {read : Reader (β Bytes)} {write : β Obj → Writer}
    {get : (ε : Type) → β ε → ε} {set : (ε δ : Type) → β ε → δ → β δ}
    {fixed : (ε : Type) → β ε → Bytes} {valid : β Bytes → Prop} {n : Nat} {need : Nat → Nat}
    {same : Bytes → Bytes → Prop} (h : BodyOf read write get set fixed valid n need same)
    (b : β Obj) (e : Bytes) (m : Nat) (he : Emits (get _ b).write e m) (hv : valid (set _ _ b e))
    (hs : slack ≤ e.length) (buf : Bytes) (hb : need m ≤ buf.length) :
    ∃ out, write b buf = .ok (out, n + e.length) ∧
      read (out.take (n + e.length)) = .ok (set _ _ b e, n + e.length) := by
  have hw := (h.writes b e m he).ok buf hb
  have hf : (fixed _ b).length = n := by rw [← h.fixed_set b e]; exact h.size _
  refine ⟨_, hw.trans (by rw [List.length_append, hf]), ?_⟩
  have hr := h.reads (set _ _ b e) hv (by rw [h.get_set]; exact hs)
  rw [h.get_set, h.fixed_set] at hr
  rw [← hr]
  congr 1
  rw [← hf, ← List.length_append, List.take_left]

/-! ## The bodies one by one -/

theorem c22_association_request :
    BodyOf readAssociationRequest writeAssociationRequest (fun _ b => b.elements)
      (fun _ _ b e => ⟨b.capabilities_info, b.listen_interval, e⟩)
      (fun _ b => toLE b.capabilities_info.bits ++ toLE b.listen_interval) (fun _ => True) 4
      (fun m => 4 + max m slack) Eq where
  get_set _ _ := rfl
  fixed_set _ _ := rfl
  size b := by simp
  writes b e m he := by
    apply Emits.cast
    · apply WEmits.run
      wr_steps
      exact WEmits.gwrite he
    · simp
    · simp; omega
  reads b _ hs := by
    obtain ⟨c, l, e⟩ := b
    simp only [List.append_assoc]
    apply RdAt.run
    apply RdAt.cast
    · rd_steps
      exact RdAt.elements hs RdAt.pure
    · simp; omega
  short inp hl := by
    refine Rd.Needs.run (n := 2 + (2 + (slack))) ?_ inp (by omega)
    apply Rd.Needs.bind (Rd.Adv.gread (readLE_fixed 16).adv); intro _
    apply Rd.Needs.bind (Rd.Adv.gread (readLE_fixed 16).adv); intro _
    exact Rd.Needs.elements
  parse inp b k h := by
    have hp := (Parses.bind (Parses.gread' (readLE_parses 16 rfl)) fun _ =>
      Parses.bind (Parses.gread' (readLE_parses 16 rfl)) fun _ =>
      Parses.bind (Parses.gread' readElements_parses) fun _ => Parses.pure).run inp b k h
    obtain ⟨bs, rest, rfl, rfl, c, _, _, rfl, rfl, l, _, _, rfl, rfl, e, _, _, rfl, ⟨rfl, hn⟩, rfl, rfl⟩ := hp
    simp at hn
    subst hn
    exact ⟨toLE c ++ toLE l, by simp, by simp, rfl, by simp, trivial⟩
  safe := by
    apply SafeReader.ne_panic
    apply Rd.Safe.run
    rd_safe
    apply Rd.Safe.bind (Rd.Safe.gread readElements_safe); intro _
    exact Rd.Safe.pure

theorem c22_authentication :
    BodyOf readAuthentication writeAuthentication (fun _ b => b.elements)
      (fun _ _ b e => ⟨b.authentication_algorithm_number, b.authentication_transaction_sequence_number, b.status_code, e⟩)
      (fun _ b => toLE b.authentication_algorithm_number.intoBits ++ toLE b.authentication_transaction_sequence_number ++ toLE b.status_code.intoBits) 
      (fun b => b.authentication_algorithm_number.Canonical ∧ b.status_code.Canonical) 6
      (fun m => 6 + max m slack) Eq where
  get_set _ _ := rfl
  fixed_set _ _ := rfl
  size b := by simp
  writes b e m he := by
    apply Emits.cast
    · apply WEmits.run
      wr_steps
      exact WEmits.gwrite he
    · simp
    · simp; omega
  reads b hv hs := by
    obtain ⟨a, t, s, e⟩ := b
    simp only [List.append_assoc]
    apply RdAt.run
    apply RdAt.cast
    · rd_steps
      rw [IEEE80211AuthenticationAlgorithmNumber.fromBits_intoBits _ hv.1,
        IEEE80211StatusCode.fromBits_intoBits _ hv.2]
      exact RdAt.elements hs RdAt.pure
    · simp; omega
  short inp hl := by
    refine Rd.Needs.run (n := 2 + (2 + (2 + (slack)))) ?_ inp (by omega)
    apply Rd.Needs.bind (Rd.Adv.gread (readLE_fixed 16).adv); intro _
    apply Rd.Needs.bind (Rd.Adv.gread (readLE_fixed 16).adv); intro _
    apply Rd.Needs.bind (Rd.Adv.gread (readLE_fixed 16).adv); intro _
    exact Rd.Needs.elements
  parse inp b k h := by
    have hp := (Parses.bind (Parses.gread' (readLE_parses 16 rfl)) fun _ =>
      Parses.bind (Parses.gread' (readLE_parses 16 rfl)) fun _ =>
      Parses.bind (Parses.gread' (readLE_parses 16 rfl)) fun _ =>
      Parses.bind (Parses.gread' readElements_parses) fun _ => Parses.pure).run inp b k h
    obtain ⟨bs, rest, rfl, rfl, a, _, _, rfl, rfl, t, _, _, rfl, rfl, s, _, _, rfl, rfl, e, _, _, rfl, ⟨rfl, hn⟩, rfl, rfl⟩ := hp
    simp at hn
    subst hn
    exact ⟨toLE a ++ toLE t ++ toLE s, by simp, by simp, by simp [IEEE80211AuthenticationAlgorithmNumber.intoBits_fromBits, IEEE80211StatusCode.intoBits_fromBits], by simp, IEEE80211AuthenticationAlgorithmNumber.canonical_fromBits _, IEEE80211StatusCode.canonical_fromBits _⟩
  safe := by
    apply SafeReader.ne_panic
    apply Rd.Safe.run
    rd_safe
    apply Rd.Safe.bind (Rd.Safe.gread readElements_safe); intro _
    exact Rd.Safe.pure

/-- Beacons and probe responses. -/
theorem c22_beacon :
    BodyOf readBeaconLike writeBeaconLike (fun _ b => b.elements)
      (fun _ _ b e => ⟨b.timestamp, b.beacon_interval, b.capabilities_info, e⟩)
      (fun _ b => toLE b.timestamp ++ toLE b.beacon_interval ++ toLE b.capabilities_info.bits) (fun _ => True) 12
      (fun m => 12 + max m slack) Eq where
  get_set _ _ := rfl
  fixed_set _ _ := rfl
  size b := by simp
  writes b e m he := by
    apply Emits.cast
    · apply WEmits.run
      wr_steps
      exact WEmits.gwrite he
    · simp
    · simp; omega
  reads b _ hs := by
    obtain ⟨t, i, c, e⟩ := b
    simp only [List.append_assoc]
    apply RdAt.run
    apply RdAt.cast
    · rd_steps
      exact RdAt.elements hs RdAt.pure
    · simp; omega
  short inp hl := by
    refine Rd.Needs.run (n := 8 + (2 + (2 + (slack)))) ?_ inp (by omega)
    apply Rd.Needs.bind (Rd.Adv.gread (readLE_fixed 64).adv); intro _
    apply Rd.Needs.bind (Rd.Adv.gread (readLE_fixed 16).adv); intro _
    apply Rd.Needs.bind (Rd.Adv.gread (readLE_fixed 16).adv); intro _
    exact Rd.Needs.elements
  parse inp b k h := by
    have hp := (Parses.bind (Parses.gread' (readLE_parses 64 rfl)) fun _ =>
      Parses.bind (Parses.gread' (readLE_parses 16 rfl)) fun _ =>
      Parses.bind (Parses.gread' (readLE_parses 16 rfl)) fun _ =>
      Parses.bind (Parses.gread' readElements_parses) fun _ => Parses.pure).run inp b k h
    obtain ⟨bs, rest, rfl, rfl, t, _, _, rfl, rfl, i, _, _, rfl, rfl, c, _, _, rfl, rfl, e, _, _, rfl, ⟨rfl, hn⟩, rfl, rfl⟩ := hp
    simp at hn
    subst hn
    exact ⟨toLE t ++ toLE i ++ toLE c, by simp, by simp, rfl, by simp, trivial⟩
  safe := by
    apply SafeReader.ne_panic
    apply Rd.Safe.run
    rd_safe
    apply Rd.Safe.bind (Rd.Safe.gread readElements_safe); intro _
    exact Rd.Safe.pure

theorem c22_disassociation :
    BodyOf readDisassociation writeDisassociation (fun _ b => b.elements)
      (fun _ _ b e => ⟨b.reason, e⟩)
      (fun _ b => toLE b.reason.intoBits) (fun b => b.reason.Canonical) 2
      (fun m => 2 + max m slack) Eq where
  get_set _ _ := rfl
  fixed_set _ _ := rfl
  size b := by simp
  writes b e m he := by
    apply Emits.cast
    · apply WEmits.run
      wr_steps
      exact WEmits.gwrite he
    · simp
    · simp
  reads b hv hs := by
    obtain ⟨r, e⟩ := b
    apply RdAt.run
    apply RdAt.cast
    · rd_steps
      rw [IEEE80211Reason.fromBits_intoBits _ hv]
      exact RdAt.elements hs RdAt.pure
    · simp
  short inp hl := by
    refine Rd.Needs.run (n := 2 + (slack)) ?_ inp (by omega)
    apply Rd.Needs.bind (Rd.Adv.gread (readLE_fixed 16).adv); intro _
    exact Rd.Needs.elements
  parse inp b k h := by
    have hp := (Parses.bind (Parses.gread' (readLE_parses 16 rfl)) fun _ =>
      Parses.bind (Parses.gread' readElements_parses) fun _ => Parses.pure).run inp b k h
    obtain ⟨bs, rest, rfl, rfl, r, _, _, rfl, rfl, e, _, _, rfl, ⟨rfl, hn⟩, rfl, rfl⟩ := hp
    simp at hn
    subst hn
    exact ⟨toLE r, by simp, by simp, by simp [IEEE80211Reason.intoBits_fromBits], by simp, IEEE80211Reason.canonical_fromBits _⟩
  safe := by
    apply SafeReader.ne_panic
    apply Rd.Safe.run
    rd_safe
    apply Rd.Safe.bind (Rd.Safe.gread readElements_safe); intro _
    exact Rd.Safe.pure

theorem c22_deauthentication :
    BodyOf readDeauthentication writeDeauthentication (fun _ b => b.elements)
      (fun _ _ b e => ⟨b.reason, e⟩)
      (fun _ b => toLE b.reason.intoBits) (fun b => b.reason.Canonical) 2
      (fun m => 2 + max m slack) Eq where
  get_set _ _ := rfl
  fixed_set _ _ := rfl
  size b := by simp
  writes b e m he := by
    apply Emits.cast
    · apply WEmits.run
      wr_steps
      exact WEmits.gwrite he
    · simp
    · simp
  reads b hv hs := by
    obtain ⟨r, e⟩ := b
    apply RdAt.run
    apply RdAt.cast
    · rd_steps
      rw [IEEE80211Reason.fromBits_intoBits _ hv]
      exact RdAt.elements hs RdAt.pure
    · simp
  short inp hl := by
    refine Rd.Needs.run (n := 2 + (slack)) ?_ inp (by omega)
    apply Rd.Needs.bind (Rd.Adv.gread (readLE_fixed 16).adv); intro _
    exact Rd.Needs.elements
  parse inp b k h := by
    have hp := (Parses.bind (Parses.gread' (readLE_parses 16 rfl)) fun _ =>
      Parses.bind (Parses.gread' readElements_parses) fun _ => Parses.pure).run inp b k h
    obtain ⟨bs, rest, rfl, rfl, r, _, _, rfl, rfl, e, _, _, rfl, ⟨rfl, hn⟩, rfl, rfl⟩ := hp
    simp at hn
    subst hn
    exact ⟨toLE r, by simp, by simp, by simp [IEEE80211Reason.intoBits_fromBits], by simp, IEEE80211Reason.canonical_fromBits _⟩
  safe := by
    apply SafeReader.ne_panic
    apply Rd.Safe.run
    rd_safe
    apply Rd.Safe.bind (Rd.Safe.gread readElements_safe); intro _
    exact Rd.Safe.pure

theorem c22_mesh_peering_open :
    BodyOf readMeshPeeringOpen writeMeshPeeringOpen (fun _ b => b.elements)
      (fun _ _ b e => ⟨b.capabilities_info, e⟩)
      (fun _ b => 15 :: 1 :: (toLE b.capabilities_info.bits)) (fun _ => True) 4
      (fun m => 4 + max m slack) Eq where
  get_set _ _ := rfl
  fixed_set _ _ := rfl
  size b := by simp
  writes b e m he := by
    apply Emits.cast
    · apply WEmits.run
      wr_steps
      exact WEmits.gwrite he
    · rfl
    · simp; omega
  reads b _ hs := by
    obtain ⟨c, e⟩ := b
    simp only [List.cons_append]
    apply RdAt.run
    apply RdAt.cast
    · apply checkSelfProtected_ok _ 1 rfl
      rd_steps
      exact RdAt.elements hs RdAt.pure
    · simp; omega
  short inp hl := by
    refine Rd.Needs.run (n := 2 + (2 + (slack))) ?_ inp (by omega)
    apply Rd.Needs.bind (checkSelfProtected_adv _); intro _
    apply Rd.Needs.bind (Rd.Adv.gread (readLE_fixed 16).adv); intro _
    exact Rd.Needs.elements
  parse inp b k h := by
    have hp := (Parses.bind (checkSelfProtected_parses _ 1 (by
        intro a h; rw [← SelfProtectedActionCode.intoBits_fromBits a, h]; rfl)) fun _ =>
      Parses.bind (Parses.gread' (readLE_parses 16 rfl)) fun _ =>
      Parses.bind (Parses.gread' readElements_parses) fun _ => Parses.pure).run inp b k h
    obtain ⟨bs, rest, rfl, rfl, _, _, _, rfl, rfl, c, _, _, rfl, rfl, e, _, _, rfl, ⟨rfl, hn⟩, rfl, rfl⟩ := hp
    simp at hn
    subst hn
    exact ⟨15 :: 1 :: (toLE c), by simp, by simp, rfl, by simp, trivial⟩
  safe := by
    apply SafeReader.ne_panic
    apply Rd.Safe.run
    apply Rd.Safe.bind (checkSelfProtected_safe _); intro _
    rd_safe
    apply Rd.Safe.bind (Rd.Safe.gread readElements_safe); intro _
    exact Rd.Safe.pure

theorem c22_mesh_peering_close :
    BodyOf readMeshPeeringClose writeMeshPeeringClose (fun _ b => b.elements)
      (fun _ _ _ e => ⟨e⟩)
      (fun _ _ => 15 :: 3 :: []) (fun _ => True) 2
      (fun m => 2 + max m slack) Eq where
  get_set _ _ := rfl
  fixed_set _ _ := rfl
  size b := by simp
  writes b e m he := by
    apply Emits.cast
    · apply WEmits.run
      wr_steps
      exact WEmits.gwrite he
    · rfl
    · omega
  reads b _ hs := by
    obtain ⟨e⟩ := b
    simp only [List.cons_append, List.nil_append]
    apply RdAt.run
    apply RdAt.cast
    · apply checkSelfProtected_ok _ 3 rfl
      rd_steps
      exact RdAt.elements hs RdAt.pure
    · rfl
  short inp hl := by
    refine Rd.Needs.run (n := 2 + (slack)) ?_ inp (by omega)
    apply Rd.Needs.bind (checkSelfProtected_adv _); intro _
    exact Rd.Needs.elements
  parse inp b k h := by
    have hp := (Parses.bind (checkSelfProtected_parses _ 3 (by
        intro a h; rw [← SelfProtectedActionCode.intoBits_fromBits a, h]; rfl)) fun _ =>
      Parses.bind (Parses.gread' readElements_parses) fun _ => Parses.pure).run inp b k h
    obtain ⟨bs, rest, rfl, rfl, _, _, _, rfl, rfl, e, _, _, rfl, ⟨rfl, hn⟩, rfl, rfl⟩ := hp
    simp at hn
    subst hn
    exact ⟨15 :: 3 :: [], by simp, by simp, rfl, by simp, trivial⟩
  safe := by
    apply SafeReader.ne_panic
    apply Rd.Safe.run
    apply Rd.Safe.bind (checkSelfProtected_safe _); intro _
    rd_safe
    apply Rd.Safe.bind (Rd.Safe.gread readElements_safe); intro _
    exact Rd.Safe.pure

omit [ScrollRule] in
/-- An association ID the library constructed is read back as itself. -/
theorem newChecked_aid (a : AssociationID) (h : IsAid a) :
    AssociationID.newChecked a.intoBits = some a := by
  obtain ⟨h1, h2⟩ := h
  rw [c04_new_checked]
  simp only [AssociationID.intoBits]
  omega

omit [ScrollRule] in
theorem isAid_of_newChecked {x : BitVec 16} {a : AssociationID}
    (h : AssociationID.newChecked x = some a) : IsAid a := by
  obtain ⟨h1, h2⟩ := (c04_new_checked x a).1 h
  simp only [AssociationID.intoBits] at h2
  simp only [IsAid]
  omega

omit [ScrollRule] in
theorem aidOfResponse_ok (o : Option AssociationID) (h : ∀ a, o = some a → IsAid a) :
    aidOfResponse ((o.map AssociationID.intoBits).getD 0) = .ok o := by
  cases o with
  | none => rfl
  | some a =>
    have ha := h a rfl
    have hne : a.intoBits ≠ 0 := by
      intro hz
      have := congrArg BitVec.toNat hz
      simp only [AssociationID.intoBits] at this
      obtain ⟨h1, _⟩ := ha
      rw [this] at h1
      exact absurd h1 (by decide)
    simp only [Option.map_some, Option.getD_some, aidOfResponse, if_neg hne, newChecked_aid a ha]

theorem c22_association_response :
    BodyOf readAssociationResponse writeAssociationResponse (fun _ b => b.elements)
      (fun _ _ b e => ⟨b.capabilities_info, b.status_code, b.association_id, e⟩)
      (fun _ b => toLE b.capabilities_info.bits ++ toLE b.status_code.intoBits ++
        toLE ((b.association_id.map AssociationID.intoBits).getD 0))
      (fun b => b.status_code.Canonical ∧ ∀ a, b.association_id = some a → IsAid a) 6
      (fun m => 6 + max m slack)
      (fun f g => f = g ∨ SameAid 4 f g) where
  get_set _ _ := rfl
  fixed_set _ _ := rfl
  size b := by simp
  writes b e m he := by
    apply Emits.cast
    · apply WEmits.run
      wr_steps
      exact WEmits.gwrite he
    · simp
    · simp; omega
  reads b hv hs := by
    obtain ⟨c, s, a, e⟩ := b
    simp only [List.append_assoc]
    apply RdAt.run
    apply RdAt.cast
    · rd_steps
      apply RdAt.bind0 (RdAt.lift (aidOfResponse_ok a hv.2))
      rw [IEEE80211StatusCode.fromBits_intoBits _ hv.1]
      exact RdAt.elements hs RdAt.pure
    · simp; omega
  short inp hl := by
    refine Rd.Needs.run (n := 2 + (2 + (2 + (0 + slack)))) ?_ inp (by omega)
    apply Rd.Needs.bind (Rd.Adv.gread (readLE_fixed 16).adv); intro _
    apply Rd.Needs.bind (Rd.Adv.gread (readLE_fixed 16).adv); intro _
    apply Rd.Needs.bind (Rd.Adv.gread (readLE_fixed 16).adv); intro v
    refine Rd.Needs.bind (Rd.Adv.lift_ne_panic ?_) fun _ => Rd.Needs.elements
    intro h
    simp only [aidOfResponse] at h
    split at h
    · simp at h
    · split at h <;> simp at h
  parse inp b k h := by
    have hp := (Parses.bind (Parses.gread' (readLE_parses 16 rfl)) fun _ =>
      Parses.bind (Parses.gread' (readLE_parses 16 rfl)) fun _ =>
      Parses.bind (Parses.gread' (readLE_parses 16 rfl)) fun _ =>
      Parses.bind Parses.lift fun _ =>
      Parses.bind (Parses.gread' readElements_parses) fun _ => Parses.pure).run inp b k h
    obtain ⟨bs, rest, rfl, rfl, c, _, _, rfl, rfl, s, _, _, rfl, rfl, v, _, _, rfl, rfl, o, _, _,
      rfl, ⟨ha, rfl⟩, e, _, _, rfl, ⟨rfl, hn⟩, rfl, rfl⟩ := hp
    simp at hn
    subst hn
    refine ⟨toLE c ++ toLE s ++ toLE v, by simp, by simp, ?_, by simp,
      IEEE80211StatusCode.canonical_fromBits _, ?_⟩
    · simp only [IEEE80211StatusCode.intoBits_fromBits]
      simp only [aidOfResponse] at ha
      split at ha
      · rename_i hv
        simp at ha
        subst ha hv
        left; rfl
      · split at ha
        · rename_i a ha'
          simp at ha
          subst ha
          right
          refine ⟨rfl, by simp, ?_⟩
          have h2 := ((c04_new_checked v a).1 ha').2
          rw [show (4 : Nat) = (toLE c ++ toLE s).length by simp, List.drop_left, List.drop_left]
          simpa only [fromLE_toLE (w := 16) rfl, Option.map_some, Option.getD_some] using h2
        · simp at ha
    · intro a hoa
      simp only at hoa
      subst hoa
      simp only [aidOfResponse] at ha
      split at ha
      · simp at ha
      · split at ha
        · rename_i a' ha'
          simp at ha
          subst ha
          exact isAid_of_newChecked ha'
        · simp at ha
  safe := by
    apply SafeReader.ne_panic
    apply Rd.Safe.run
    rd_safe
    refine Rd.Safe.bind (Rd.Safe.lift ?_) fun _ =>
      Rd.Safe.bind (Rd.Safe.gread readElements_safe) fun _ => Rd.Safe.pure
    intro h
    simp only [aidOfResponse] at h
    split at h
    · simp at h
    · split at h <;> simp at h

theorem c22_mesh_peering_confirm :
    BodyOf readMeshPeeringConfirm writeMeshPeeringConfirm (fun _ b => b.elements)
      (fun _ _ b e => ⟨b.capabilities_info, b.association_id, e⟩)
      (fun _ b => 15 :: 2 :: (toLE b.capabilities_info.bits ++ toLE b.association_id.intoBits))
      (fun b => IsAid b.association_id) 6 (fun m => 6 + max m slack) (SameAid 4) where
  get_set _ _ := rfl
  fixed_set _ _ := rfl
  size b := by simp
  writes b e m he := by
    apply Emits.cast
    · apply WEmits.run
      wr_steps
      exact WEmits.gwrite he
    · simp; constructor <;> rfl
    · simp; omega
  reads b hv hs := by
    obtain ⟨c, a, e⟩ := b
    simp only [List.append_assoc, List.cons_append]
    apply RdAt.run
    apply RdAt.cast
    · apply checkSelfProtected_ok _ 2 rfl
      rd_steps
      apply RdAt.bind0 (RdAt.lift (a := a) (by simp only [newChecked_aid a hv]))
      exact RdAt.elements hs RdAt.pure
    · simp; omega
  short inp hl := by
    refine Rd.Needs.run (n := 2 + (2 + (2 + (0 + slack)))) ?_ inp (by omega)
    apply Rd.Needs.bind (checkSelfProtected_adv _); intro _
    apply Rd.Needs.bind (Rd.Adv.gread (readLE_fixed 16).adv); intro _
    apply Rd.Needs.bind (Rd.Adv.gread (readLE_fixed 16).adv); intro v
    refine Rd.Needs.bind (Rd.Adv.lift_ne_panic ?_) fun _ => Rd.Needs.elements
    intro h
    split at h <;> simp at h
  parse inp b k h := by
    have hp := (Parses.bind (checkSelfProtected_parses _ 2 (by
        intro a h; rw [← SelfProtectedActionCode.intoBits_fromBits a, h]; rfl)) fun _ =>
      Parses.bind (Parses.gread' (readLE_parses 16 rfl)) fun _ =>
      Parses.bind (Parses.gread' (readLE_parses 16 rfl)) fun _ =>
      Parses.bind Parses.lift fun _ =>
      Parses.bind (Parses.gread' readElements_parses) fun _ => Parses.pure).run inp b k h
    obtain ⟨bs, rest, rfl, rfl, _, _, _, rfl, rfl, c, _, _, rfl, rfl, v, _, _, rfl, rfl, o, _, _,
      rfl, ⟨ha, rfl⟩, e, _, _, rfl, ⟨rfl, hn⟩, rfl, rfl⟩ := hp
    simp at hn
    subst hn
    have ha' : AssociationID.newChecked v = some o := by
      split at ha
      · simp at ha; subst ha; assumption
      · simp at ha
    refine ⟨15 :: 2 :: (toLE c ++ toLE v), by simp, by simp, ⟨by simp, by simp, ?_⟩, by simp,
      isAid_of_newChecked ha'⟩
    have h2 := ((c04_new_checked v o).1 ha').2
    rw [show (4 : Nat) = (15 :: 2 :: toLE c).length by simp, ← List.cons_append, ← List.cons_append,
      ← List.cons_append, ← List.cons_append, List.drop_left, List.drop_left]
    simpa only [fromLE_toLE (w := 16) rfl] using h2
  safe := by
    apply SafeReader.ne_panic
    apply Rd.Safe.run
    apply Rd.Safe.bind (checkSelfProtected_safe _); intro _
    rd_safe
    refine Rd.Safe.bind (Rd.Safe.lift ?_) fun _ =>
      Rd.Safe.bind (Rd.Safe.gread readElements_safe) fun _ => Rd.Safe.pure
    intro h
    split at h <;> simp at h

theorem c22_probe_request :
    BodyOf readProbeRequest writeProbeRequest (fun _ b => b.elements) (fun _ _ _ e => ⟨e⟩)
      (fun _ _ => []) (fun _ => True) 0 (fun m => m) Eq where
  get_set _ _ := rfl
  fixed_set _ _ := rfl
  size _ := rfl
  writes b e m he := he
  reads b _ hs := by
    obtain ⟨e⟩ := b
    apply RdAt.run
    apply RdAt.cast
    · exact RdAt.elements hs RdAt.pure
    · simp
  short inp hl := by
    refine Rd.Needs.run (n := slack) ?_ inp (by omega)
    exact Rd.Needs.elements
  parse inp b k h := by
    have hp := (Parses.bind (Parses.gread' readElements_parses) fun _ =>
      Parses.pure).run inp b k h
    obtain ⟨bs, rest, rfl, rfl, e, _, _, rfl, ⟨rfl, hn⟩, rfl, rfl⟩ := hp
    simp at hn
    subst hn
    exact ⟨[], by simp, rfl, rfl, by simp, trivial⟩
  safe := by
    apply SafeReader.ne_panic
    apply Rd.Safe.run
    apply Rd.Safe.bind (Rd.Safe.gread readElements_safe); intro _
    exact Rd.Safe.pure

/-! ## Sizes -/

/-- `measure` is `short` bytes less than what is written, whenever the elements
report theirs exactly. -/
def Spec.MeasuresBy {β : Type} (get : β → Obj) (write : β → Writer) (measure : β → Nat) (short : Nat) : Prop :=
  ∀ (b : β) (e : Bytes) (m : Nat), Emits (get b).write e m → (get b).measure = e.length →
    ∀ buf out k, write b buf = .ok (out, k) → measure b + short = k

theorem measuresBy_of {β : Type → Type} {read : Reader (β Bytes)} {write : β Obj → Writer}
    {get : (ε : Type) → β ε → ε} {set : (ε δ : Type) → β ε → δ → β δ}
    {fixed : (ε : Type) → β ε → Bytes} {valid : β Bytes → Prop} {n : Nat} {need : Nat → Nat}
    {same : Bytes → Bytes → Prop} (h : BodyOf read write get set fixed valid n need same)
    (measure : β Obj → Nat) (short : Nat) (hm : ∀ b, measure b + short = n + (get _ b).measure) :
    MeasuresBy (get Obj) write measure short := by
  intro b e m he hmeas buf out k hk
  have hw := h.writes b e m he
  have hf : (fixed _ b).length = n := by rw [← h.fixed_set b []]; exact h.size _
  by_cases hb : need m ≤ buf.length
  · have := hk.symm.trans (hw.ok buf hb)
    simp at this
    rw [hm, hmeas, this.2, hf]
  · obtain ⟨x, hx⟩ := hw.err buf (by omega)
    rw [hx] at hk
    simp at hk

/-- The eight bodies made of fixed fields and elements report their size exactly. -/
theorem c22_measure :
    MeasuresBy (·.elements) writeAssociationRequest measureAssociationRequest 0 ∧
    MeasuresBy (·.elements) writeAssociationResponse measureAssociationResponse 0 ∧
    MeasuresBy (·.elements) writeAuthentication measureAuthentication 0 ∧
    MeasuresBy (·.elements) writeBeaconLike measureBeaconLike 0 ∧
    MeasuresBy (·.elements) writeDisassociation measureDisassociation 0 ∧
    MeasuresBy (·.elements) writeDeauthentication measureDeauthentication 0 ∧
    MeasuresBy (·.elements) writeProbeRequest measureProbeRequest 0 := by
  refine ⟨?_, ?_, ?_, ?_, ?_, ?_, ?_⟩
  · exact measuresBy_of c22_association_request _ 0 fun _ => by first | rfl | exact (Nat.zero_add _).symm
  · exact measuresBy_of c22_association_response _ 0 fun _ => by first | rfl | exact (Nat.zero_add _).symm
  · exact measuresBy_of c22_authentication _ 0 fun _ => by first | rfl | exact (Nat.zero_add _).symm
  · exact measuresBy_of c22_beacon _ 0 fun _ => by first | rfl | exact (Nat.zero_add _).symm
  · exact measuresBy_of c22_disassociation _ 0 fun _ => by first | rfl | exact (Nat.zero_add _).symm
  · exact measuresBy_of c22_deauthentication _ 0 fun _ => by first | rfl | exact (Nat.zero_add _).symm
  · exact measuresBy_of c22_probe_request _ 0 fun _ => by first | rfl | exact (Nat.zero_add _).symm

/-- Violation: the three mesh peering bodies report one byte less than they write: the action code is not
counted, so a buffer of the reported size is too small. -/
theorem c22_measure_wrong :
    MeasuresBy (·.elements) writeMeshPeeringOpen measureMeshPeeringOpen 1 ∧
    MeasuresBy (·.elements) writeMeshPeeringConfirm measureMeshPeeringConfirm 1 ∧
    MeasuresBy (·.elements) writeMeshPeeringClose measureMeshPeeringClose 1 := by
  refine ⟨?_, ?_, ?_⟩
  · exact measuresBy_of c22_mesh_peering_open _ 1 fun _ => by
      simp [measureMeshPeeringOpen]; omega
  · exact measuresBy_of c22_mesh_peering_confirm _ 1 fun _ => by
      simp [measureMeshPeeringConfirm]; omega
  · exact measuresBy_of c22_mesh_peering_close _ 1 fun _ => by
      simp [measureMeshPeeringClose]; omega

/-- Under the strict rule a body without elements, as written by the library, is not read back. -/
theorem c22_no_elements_strict {β : Type → Type} {read : Reader (β Bytes)} {write : β Obj → Writer}
    {get : (ε : Type) → β ε → ε} {set : (ε δ : Type) → β ε → δ → β δ}
    {fixed : (ε : Type) → β ε → Bytes} {valid : β Bytes → Prop} {n : Nat} {need : Nat → Nat}
    {same : Bytes → Bytes → Prop} (h : BodyOf read write get set fixed valid n need same)
    (hs : ScrollRule.strict = true) (b : β Obj) (m : Nat) (he : Emits (get _ b).write [] m)
    (buf : Bytes) (hb : need m ≤ buf.length) :
    ∃ out, write b buf = .ok (out, n) ∧ ∃ x, read (out.take n) = .err x := by
  have hw := (h.writes b [] m he).ok buf hb
  have hf : (fixed _ b).length = n := by rw [← h.fixed_set b []]; exact h.size _
  refine ⟨_, hw.trans (by rw [List.append_nil, hf]), ?_⟩
  apply h.short
  simp [slack, hs]
  omega

/-! ## Cases -/

/-- A deauthentication body with one vendor element, written and read back. -/
example : ∃ out, writeDeauthentication ⟨.fromBits 3, elementsObj [221, 3, 1, 2, 3]⟩
      (List.replicate 9 0xff) = .ok (out, 7) ∧
    out = [3, 0, 221, 3, 1, 2, 3, 0xff, 0xff] ∧
    readDeauthentication (out.take 7) = .ok (⟨.fromBits 3, [221, 3, 1, 2, 3]⟩, 7) := by
  cases ‹ScrollRule› with | mk s => cases s <;> exact ⟨_, rfl, rfl, by decide⟩

/-- An association response with AID 5, whose top bits the sender left clear. -/
example : readAssociationResponse [1, 0, 0, 0, 5, 0, 0, 1, 65] =
    .ok (⟨⟨1⟩, .fromBits 0, some ⟨0xc005⟩, [0, 1, 65]⟩, 9) := by
  cases ‹ScrollRule› with | mk s => cases s <;> decide

/-- The hypothesis of the round trip is met by every byte string as elements. -/
example (bytes : Bytes) : Emits (elementsObj bytes).write bytes (bytes.length + (slack - bytes.length)) := by
  apply Emits.cast
  · exact Emits.pwrite0 (Emits.bytes _)
  · rfl
  · first | rfl | omega

end Verif
