import Verif.Model.Frames.Builder
import Verif.Props.C27
import Verif.Props.C28
/-!
# C29: the data frame builder

A program is a list of method calls followed by `build`.  What it should build is specified by the
table "Address field contents" of C28: a call which names a role fills the fields the table gives to
that role.
-/
set_option linter.unusedSimpArgs false

namespace Verif

namespace Spec

/-- The bits of the flags byte a call sets. -/
def flagBits {π : Type} : BuilderOp π → List Nat
  | .to_ds => [0]
  | .from_ds => [1]
  | .to_and_from_ds => [0, 1]
  | .more_fragments => [2]
  | .retry => [3]
  | .power_management => [4]
  | .more_data => [5]
  | .protected => [6]
  | .order => [7]
  | _ => []

/-- The subtype number of each category: bit 3 for QoS, bit 2 for "no data". -/
def categoryNumber : DataCategory → Nat
  | .Data => 0
  | .DataNull => 4
  | .QoS => 8
  | .QoSNull => 12

/-- What the calls so far have said. -/
structure Given where
  to_ds : Bool
  from_ds : Bool
  amsdu : Bool
  address : AddressField → Option Mac

def Given.fill (g : Given) (fs : List AddressField) (a : Mac) : Given :=
  { g with address := fun f => if f ∈ fs then some a else g.address f }

/-- One more call: a role fills the fields which belong to it. -/
def Given.next {π : Type} (g : Given) : BuilderOp π → Given
  | .to_ds => { g with to_ds := true }
  | .from_ds => { g with from_ds := true }
  | .to_and_from_ds => { g with to_ds := true, from_ds := true }
  | .payload .AMSDU _ => { g with amsdu := true }
  | .payload_amsdu _ => { g with amsdu := true }
  | .receiver_address a => g.fill [.one] a
  | .transmitter_address a => g.fill [.two] a
  | .destination_address a => g.fill (addressTable g.to_ds g.from_ds g.amsdu).1.toList a
  | .source_address a => g.fill (addressTable g.to_ds g.from_ds g.amsdu).2.1.toList a
  | .bssid a => g.fill (addressTable g.to_ds g.from_ds g.amsdu).2.2 a
  | _ => g

def given {π : Type} (ops : List (BuilderOp π)) : Given :=
  ops.foldl Given.next ⟨false, false, false, fun _ => none⟩

def isDestination {π : Type} : BuilderOp π → Bool
  | .destination_address _ => true
  | _ => false

def isFromDs {π : Type} : BuilderOp π → Bool
  | .from_ds => true
  | _ => false

def givesAmsdu {π : Type} : BuilderOp π → Bool
  | .payload .AMSDU _ | .payload_amsdu _ => true
  | _ => false

end Spec

open Spec

variable {π : Type}

/-! ## Flags and subtype -/

private theorem setBit_true (x : BitVec 8) (k i : Nat) (hk : k < 8) :
    (setBit x k true).getLsbD i = (x.getLsbD i || decide (i = k)) := by
  by_cases h : i = k
  · subst h
    have := getBit_setBit_same x i true hk
    simp only [getBit] at this
    simp [this]
  · have := getBit_setBit_other x k i true hk (fun e => h e.symm)
    simp only [getBit] at this
    simp [this, h]

/-- Taking `apply` apart. -/
local macro "open_apply" h:ident : tactic => `(tactic|
  (simp only [DataFrameBuilder.apply] at $h:ident
   repeat' split at $h:ident
   all_goals first
     | (simp only [reduceCtorEq] at $h:ident; done)
     | (simp only [Option.some.injEq] at $h:ident; subst $h:ident)))

private theorem apply_flags (b b' : DataFrameBuilder π) (op : BuilderOp π) (h : b.apply op = some b') (i : Nat) :
    b'.fcf_flags.bits.getLsbD i = (b.fcf_flags.bits.getLsbD i || decide (i ∈ flagBits op)) := by
  cases op
  all_goals open_apply h
  all_goals simp [flagBits, FCFFlags.with_to_ds, FCFFlags.with_from_ds, FCFFlags.with_more_fragments,
    FCFFlags.with_retry, FCFFlags.with_pwr_mgmt, FCFFlags.with_more_data, FCFFlags.with_protected_,
    FCFFlags.with_order, setBit_true, Bool.or_assoc]
  all_goals split <;> rfl

private theorem run_flags (ops : List (BuilderOp π)) : ∀ (b b' : DataFrameBuilder π), b.run ops = some b' → ∀ i,
    b'.fcf_flags.bits.getLsbD i =
      (b.fcf_flags.bits.getLsbD i || ops.any fun op => decide (i ∈ flagBits op)) := by
  induction ops with
  | nil => intro b b' h i; cases h; simp
  | cons op ops ih =>
    intro b b' h i
    obtain ⟨c, hc, h⟩ := Option.bind_eq_some_iff.1 h
    rw [ih c b' h i, apply_flags b c op hc i, List.any_cons, Bool.or_assoc]

private theorem build_some (b : DataFrameBuilder π) (f : DataFrame π) (h : b.build = some f) :
    ∃ c a1 a2 a3, b.category = some c ∧ b.address_1 = some a1 ∧ b.address_2 = some a2 ∧
      b.address_3 = some a3 ∧
      f = ⟨⟨.fromBits (c.UPPER_TWO_BITS <<< 2), b.fcf_flags, 0, a1, a2, a3, ⟨0⟩,
            if b.address4Type then b.address_4 else none, none, none⟩, b.payload⟩ := by
  simp only [DataFrameBuilder.build] at h
  split at h
  · rename_i c a1 a2 a3 h0 h1 h2 h3
    exact ⟨c, a1, a2, a3, h0, h1, h2, h3, by simpa using h.symm⟩
  · simp at h

/-- Bit by bit, the flags of the frame built are those set by some call: the direction chosen, and the
flags asked for. -/
theorem c29_flags (ops : List (BuilderOp π)) (f : DataFrame π) (h : buildDataFrame ops = some f) (i : Nat) :
    f.header.fcf_flags.bits.getLsbD i = true ↔ ∃ op ∈ ops, i ∈ flagBits op := by
  obtain ⟨b, hb, h⟩ := Option.bind_eq_some_iff.1 h
  obtain ⟨c, a1, a2, a3, _, _, _, _, rfl⟩ := build_some b f h
  have := run_flags ops _ b hb i
  simp only at this ⊢
  rw [this]
  simp [DataFrameBuilder.new]

private theorem apply_category (b b' : DataFrameBuilder π) (op : BuilderOp π) (h : b.apply op = some b') :
    (∃ c, op = .category c ∧ b.category = none ∧ b'.category = some c) ∨
      ((∀ c, op ≠ .category c) ∧ b'.category = b.category) := by
  cases op
  case category c =>
    left
    simp only [DataFrameBuilder.apply] at h
    split at h
    · rename_i hb
      refine ⟨c, rfl, ?_, ?_⟩
      · simp [DataFrameBuilder.blank] at hb; exact hb.1.1.1.1.1
      · cases c <;> simp at h <;> subst h <;> rfl
    · simp at h
  all_goals
    right
    refine ⟨by simp, ?_⟩
    open_apply h
    all_goals rfl

private theorem run_category (ops : List (BuilderOp π)) : ∀ (b b' : DataFrameBuilder π), b.run ops = some b' →
    (b'.category = b.category ∧ ∀ c, BuilderOp.category c ∉ ops) ∨
    (b.category = none ∧ ∃ c, b'.category = some c ∧ ∀ d, BuilderOp.category d ∈ ops ↔ d = c) := by
  induction ops with
  | nil => intro b b' h; cases h; left; simp
  | cons op ops ih =>
    intro b b' h
    obtain ⟨m, hm, h'⟩ := Option.bind_eq_some_iff.1 h
    rcases apply_category b m op hm with ⟨c, rfl, h1, h2⟩ | ⟨h1, h2⟩
    · rcases ih m b' h' with ⟨h3, h4⟩ | ⟨h3, _⟩
      · refine Or.inr ⟨h1, c, h3.trans h2, fun d => ?_⟩
        simp [h4 d]
      · rw [h2] at h3; exact absurd h3 (by simp)
    · rcases ih m b' h' with ⟨h3, h4⟩ | ⟨h3, c, h4, h5⟩
      · refine Or.inl ⟨h3.trans h2, fun c => ?_⟩
        simp only [List.mem_cons, not_or]
        exact ⟨fun e => h1 c e.symm, h4 c⟩
      · refine Or.inr ⟨h2 ▸ h3, c, h4, fun d => ?_⟩
        rw [List.mem_cons, h5 d]
        exact ⟨fun e => e.elim (fun e => absurd e.symm (h1 d)) id, Or.inr⟩

/-- Exactly one category was chosen, and the subtype is the one of that category. -/
theorem c29_subtype (ops : List (BuilderOp π)) (f : DataFrame π) (h : buildDataFrame ops = some f) :
    ∃ c, (∀ d, BuilderOp.category d ∈ ops ↔ d = c) ∧
      f.header.subtype.intoBits.toNat = categoryNumber c := by
  obtain ⟨b, hb, h⟩ := Option.bind_eq_some_iff.1 h
  obtain ⟨c, a1, a2, a3, h0, _, _, _, rfl⟩ := build_some b f h
  rcases run_category ops _ b hb with ⟨h1, _⟩ | ⟨_, c', h1, h2⟩
  · rw [h0] at h1; simp [DataFrameBuilder.new] at h1
  · rw [h0] at h1
    cases h1
    exact ⟨c, h2, by cases c <;> rfl⟩

/-- That is one of the named subtypes. -/
theorem c29_valid (ops : List (BuilderOp π)) (f : DataFrame π) (h : buildDataFrame ops = some f) :
    ValidData f.header := by
  obtain ⟨b, _, h⟩ := Option.bind_eq_some_iff.1 h
  obtain ⟨c, a1, a2, a3, _, _, _, _, rfl⟩ := build_some b f h
  exact ⟨by show (DataFrameSubtype.fromBits _).intoBits.toNat < 16; cases c <;> decide,
    DataFrameSubtype.canonical_fromBits _⟩

/-! ## Addresses -/

/-- The state of the builder agrees with what the calls have said. -/
private structure Agrees (b : DataFrameBuilder π) (g : Given) : Prop where
  ds : (b.ds = .Undecided ∧ g.to_ds = false ∧ g.from_ds = false ∨
    b.ds = .NeitherToNorFromDS ∧ g.to_ds = false ∧ g.from_ds = false) ∨
    (b.ds = .ToDS ∧ g.to_ds = true ∧ g.from_ds = false ∨
    b.ds = .FromDS ∧ g.to_ds = false ∧ g.from_ds = true) ∨
    b.ds = .ToAndFromDS ∧ g.to_ds = true ∧ g.from_ds = true
  amsdu : g.amsdu = true ↔ b.payloadType = .AMSDU
  one : b.address_1 = g.address .one
  two : b.address_2 = g.address .two
  three : b.address_3 = g.address .three
  four : b.address_4 = g.address .four
  four' : b.address4Type = b.address_4.isSome
  start : b.ds = .Undecided → b.address_4 = none

private theorem apply_agrees (b b' : DataFrameBuilder π) (op : BuilderOp π) (g : Given) (ha : Agrees b g)
    (h : b.apply op = some b') (hfd : ¬(g.from_ds = true ∧ g.to_ds = false ∧ isDestination op = true)) :
    Agrees b' (g.next op) := by
  obtain ⟨hds, ham, h1, h2, h3, h4, h4', hst⟩ := ha
  obtain ⟨ds, cat, pt, a1, a2, a3, t4, a4, p, fl⟩ := b
  obtain ⟨td, fd, am, ad⟩ := g
  simp only at hds ham h1 h2 h3 h4 h4' hst hfd
  cases op
  case payload t p =>
    open_apply h
    cases t <;> refine ⟨hds, ?_, ?_, ?_, ?_, ?_, ?_, ?_⟩ <;> simp_all [Given.next, GivenPayload.type]
  case category c =>
    simp only [DataFrameBuilder.apply] at h
    split at h
    · rename_i hb
      simp only [DataFrameBuilder.blank] at hb
      simp only [Option.some.injEq] at h
      subst h
      cases c <;> refine ⟨hds, ?_, h1, h2, h3, h4, h4', hst⟩ <;> simp_all [Given.next]
    · simp at h
  all_goals
    rcases hds with (⟨rfl, rfl, rfl⟩ | ⟨rfl, rfl, rfl⟩) | (⟨rfl, rfl, rfl⟩ | ⟨rfl, rfl, rfl⟩) | ⟨rfl, rfl, rfl⟩
  all_goals open_apply h
  all_goals first
    | (exfalso; simp_all [isDestination]; done)
    | (cases am <;> constructor <;> simp_all [Given.next, Given.fill, addressTable, DataFrameBuilder.blank]; done)

private theorem run_agrees (ops : List (BuilderOp π)) : ∀ (b b' : DataFrameBuilder π) (g : Given),
    Agrees b g → b.run ops = some b' →
    ¬((g.from_ds = true ∧ g.to_ds = false ∨ ops.any isFromDs = true) ∧ ops.any isDestination = true) →
    Agrees b' (ops.foldl Given.next g) := by
  induction ops with
  | nil => intro b b' g ha h _; cases h; exact ha
  | cons op ops ih =>
    intro b b' g ha h hn
    obtain ⟨m, hm, h'⟩ := Option.bind_eq_some_iff.1 h
    simp only [List.any_cons, Bool.or_eq_true] at hn
    refine ih m b' (g.next op) (apply_agrees b m op g ha hm ?_) h' ?_
    · rintro ⟨h1, h2, h3⟩
      exact hn ⟨Or.inl ⟨h1, h2⟩, Or.inl h3⟩
    · rintro ⟨h1, h2⟩
      refine hn ⟨?_, Or.inr h2⟩
      rcases h1 with ⟨h1, h3⟩ | h1
      · cases op
        case from_ds => exact Or.inr (Or.inl rfl)
        case payload t p => cases t <;> exact Or.inl ⟨h1, h3⟩
        all_goals first
          | exact Or.inl ⟨h1, h3⟩
          | simp [Given.next] at h1 h3
      · exact Or.inr (Or.inr h1)

private theorem built_agrees (ops : List (BuilderOp π)) (f : DataFrame π) (h : buildDataFrame ops = some f)
    (hn : ¬(ops.any isFromDs = true ∧ ops.any isDestination = true)) :
    ∃ b, b.build = some f ∧ Agrees b (given ops) := by
  obtain ⟨b, hb, h⟩ := Option.bind_eq_some_iff.1 h
  refine ⟨b, h, run_agrees ops _ b _ ?_ hb ?_⟩
  · constructor <;> simp [DataFrameBuilder.new]
  · simpa using hn

/-- Every address field of the frame is the one last given for it, by the table, unless the direction
is "from the DS" and a destination was given.  (The full statement has no such exception; see
`c29_from_ds_swapped`.) -/
theorem c29_addresses_partial (ops : List (BuilderOp π)) (f : DataFrame π) (h : buildDataFrame ops = some f)
    (hn : ¬(ops.any isFromDs = true ∧ ops.any isDestination = true)) (a : AddressField) :
    field f.header a = (given ops).address a := by
  obtain ⟨b, hb, ha⟩ := built_agrees ops f h hn
  obtain ⟨c, a1, a2, a3, h0, h1, h2, h3, rfl⟩ := build_some b f hb
  cases a
  · exact h1.symm.trans ha.one
  · exact h2.symm.trans ha.two
  · exact h3.symm.trans ha.three
  · show (if b.address4Type then b.address_4 else none) = _
    rw [← ha.four, ha.four']
    cases b.address_4 <;> rfl

private theorem foldl_flags (ops : List (BuilderOp π)) : ∀ g : Given,
    ((ops.foldl Given.next g).to_ds = (g.to_ds || ops.any fun op => decide (0 ∈ flagBits op))) ∧
    ((ops.foldl Given.next g).from_ds = (g.from_ds || ops.any fun op => decide (1 ∈ flagBits op))) := by
  induction ops with
  | nil => intro g; simp
  | cons op ops ih =>
    intro g
    rw [List.foldl_cons, (ih _).1, (ih _).2, List.any_cons, List.any_cons, ← Bool.or_assoc, ← Bool.or_assoc]
    have : (g.next op).to_ds = (g.to_ds || decide (0 ∈ flagBits op)) ∧
        (g.next op).from_ds = (g.from_ds || decide (1 ∈ flagBits op)) := by
      cases op
      case payload t p => cases t <;> simp [Given.next, flagBits]
      all_goals simp [Given.next, Given.fill, flagBits]
    rw [this.1, this.2]
    exact ⟨rfl, rfl⟩

/-- The direction of the frame is the one chosen. -/
theorem c29_direction (ops : List (BuilderOp π)) (f : DataFrame π) (h : buildDataFrame ops = some f) :
    f.header.fcf_flags.to_ds = (given ops).to_ds ∧ f.header.fcf_flags.from_ds = (given ops).from_ds := by
  have h0 := c29_flags ops f h 0
  have h1 := c29_flags ops f h 1
  obtain ⟨h2, h3⟩ := foldl_flags ops ⟨false, false, false, fun _ => none⟩
  simp only [given, h2, h3]
  simp only [FCFFlags.to_ds, FCFFlags.from_ds, getBit]
  constructor
  · rw [Bool.eq_iff_iff, h0]; simp
  · rw [Bool.eq_iff_iff, h1]; simp

/-- What a frame built says of its QoS and HT control fields. -/
theorem c29_no_qos (ops : List (BuilderOp π)) (f : DataFrame π) (h : buildDataFrame ops = some f) :
    f.header.qos = none ∧ f.header.ht_control = none ∧ f.header.isAmsdu = false := by
  obtain ⟨b, _, h⟩ := Option.bind_eq_some_iff.1 h
  obtain ⟨c, a1, a2, a3, _, _, _, _, rfl⟩ := build_some b f h
  exact ⟨rfl, rfl, by simp [DataFrameHeader.isAmsdu]⟩

/-- The role accessors return the addresses given for the roles, for a frame which carries no A-MSDU,
with the same exception. -/
theorem c29_roles_partial (ops : List (BuilderOp π)) (f : DataFrame π) (h : buildDataFrame ops = some f)
    (hn : ¬(ops.any isFromDs = true ∧ ops.any isDestination = true)) (ham : (given ops).amsdu = false) :
    let row := addressTable (given ops).to_ds (given ops).from_ds (given ops).amsdu
    f.header.destinationAddress = row.1.bind (given ops).address ∧
    f.header.sourceAddress = row.2.1.bind (given ops).address ∧
    some f.header.receiverAddress = (given ops).address .one ∧
    some f.header.transmitterAddress = (given ops).address .two ∧
    (¬((given ops).to_ds = true ∧ (given ops).from_ds = true) →
      f.header.bssid = row.2.2.head?.bind (given ops).address) := by
  have ha := c29_addresses_partial ops f h hn
  obtain ⟨ht, hf⟩ := c29_direction ops f h
  have hm := (c29_no_qos ops f h).2.2
  have hfun : field f.header = (given ops).address := funext ha
  have hr : rolesOf f.header = addressTable (given ops).to_ds (given ops).from_ds (given ops).amsdu := by
    rw [rolesOf, ht, hf, hm, ham]
  refine ⟨?_, ?_, ha .one, ha .two, ?_⟩
  · rw [c28_destination, hr, hfun]
  · rw [c28_source, hr, hfun]
  · intro hb
    rw [c28_bssid_partial f.header (by rw [ht, hf]; exact hb), hr, hfun]

/-- The usual programs, in each direction: all three roles are read back. -/
theorem c29_usual_partial (p : π) (d s b : Mac) :
    (∃ f, buildDataFrame [.neither_to_nor_from_ds, .category .Data, .payload .Bytes p,
        .destination_address d, .source_address s, .bssid b] = some f ∧ f.header.destinationAddress = some d ∧
        f.header.sourceAddress = some s ∧ f.header.bssid = some b) ∧
    (∃ f, buildDataFrame [.to_ds, .category .Data, .payload .Bytes p,
        .destination_address d, .source_address s, .bssid b] = some f ∧ f.header.destinationAddress = some d ∧
        f.header.sourceAddress = some s ∧ f.header.bssid = some b) ∧
    (∃ f, buildDataFrame [.from_ds, .category .Data, .payload .Bytes p,
        .source_address s, .bssid b, .destination_address d] = some f ∧ f.header.destinationAddress = some d ∧
        f.header.sourceAddress = some s ∧ f.header.bssid = some b) ∧
    (∃ f, buildDataFrame [.to_and_from_ds, .category .Data, .payload .Bytes p, .receiver_address b,
        .transmitter_address b, .destination_address d, .source_address s] = some f ∧
        f.header.destinationAddress = some d ∧ f.header.sourceAddress = some s) := by
  refine ⟨⟨⟨⟨.Data, ⟨0⟩, 0, d, s, b, ⟨0⟩, none, none, none⟩, some p⟩, ?_, ?_, ?_, ?_⟩,
    ⟨⟨⟨.Data, ⟨1⟩, 0, b, s, d, ⟨0⟩, none, none, none⟩, some p⟩, ?_, ?_, ?_, ?_⟩,
    ⟨⟨⟨.Data, ⟨2⟩, 0, d, b, s, ⟨0⟩, none, none, none⟩, some p⟩, ?_, ?_, ?_, ?_⟩,
    ⟨⟨⟨.Data, ⟨3⟩, 0, b, b, d, ⟨0⟩, some s, none, none⟩, some p⟩, ?_, ?_, ?_⟩⟩
  all_goals first
    | (simp [buildDataFrame, DataFrameBuilder.run, DataFrameBuilder.apply, DataFrameBuilder.new,
        DataFrameBuilder.blank, DataCategory.hasPayload, GivenPayload.type, DataFrameBuilder.build]
       done)
    | (simp [buildDataFrame, DataFrameBuilder.run, DataFrameBuilder.apply, DataFrameBuilder.new,
        DataFrameBuilder.blank, DataCategory.hasPayload, GivenPayload.type, DataFrameBuilder.build]
       decide)
    | simp [DataFrameHeader.destinationAddress, DataFrameHeader.sourceAddress, DataFrameHeader.bssid,
        FCFFlags.to_ds, FCFFlags.from_ds, getBit, DataFrameHeader.isAmsdu]

/-! ## Violations -/

/-- Violation: the program of the documentation.  After `destination_address` the builder takes the
frame for one which neither goes to nor comes from the DS, though the flag is set; so the source and
the BSSID are exchanged. -/
theorem c29_from_ds_swapped (p : π) (d s b : Mac) :
    ∃ f, buildDataFrame [.from_ds, .category .Data, .payload .Bytes p, .destination_address d,
        .source_address s, .bssid b] = some f ∧ f.header.fcf_flags.from_ds = true ∧
      f.header.sourceAddress = some b ∧ f.header.bssid = some s := by
  refine ⟨⟨⟨.Data, ⟨2⟩, 0, d, s, b, ⟨0⟩, none, none, none⟩, some p⟩, ?_, by simp [FCFFlags.from_ds, getBit],
    (by simp [DataFrameHeader.destinationAddress, DataFrameHeader.sourceAddress, DataFrameHeader.bssid,
      FCFFlags.to_ds, FCFFlags.from_ds, getBit, DataFrameHeader.isAmsdu]),
    (by simp [DataFrameHeader.destinationAddress, DataFrameHeader.sourceAddress, DataFrameHeader.bssid,
      FCFFlags.to_ds, FCFFlags.from_ds, getBit, DataFrameHeader.isAmsdu])⟩
  simp [buildDataFrame, DataFrameBuilder.run, DataFrameBuilder.apply, DataFrameBuilder.new,
    DataFrameBuilder.blank, DataCategory.hasPayload, GivenPayload.type, DataFrameBuilder.build]
  decide

/-- Violation: no QoS frame built has a QoS field, so none is a proper frame, and reading it back takes
two bytes of the payload for the QoS field. -/
theorem c29_qos_improper (ops : List (BuilderOp π)) (f : DataFrame π) (h : buildDataFrame ops = some f)
    (c : DataCategory) (hc : BuilderOp.category c ∈ ops) (hq : c = .QoS ∨ c = .QoSNull) :
    ¬ HeaderConsistent f.header := by
  obtain ⟨c', h1, h2⟩ := c29_subtype ops f h
  cases (h1 c).1 hc
  intro hcon
  have := hcon.qos.2 (by
    rw [qosSubtype, h2]
    rcases hq with rfl | rfl <;> decide)
  rw [(c29_no_qos ops f h).1] at this
  simp at this

/-- Violation: a frame to the DS built for an A-MSDU is not marked as one, and reports the BSSID as its
destination. -/
theorem c29_amsdu_unmarked (p : π) (s b : Mac) :
    ∃ f, buildDataFrame [.to_ds, .category .QoS, .payload_amsdu p, .source_address s, .bssid b] = some f ∧
      f.header.isAmsdu = false ∧ f.header.destinationAddress = some b := by
  refine ⟨⟨⟨.QoSData, ⟨1⟩, 0, b, s, b, ⟨0⟩, none, none, none⟩, some p⟩, ?_,
    (by simp [DataFrameHeader.destinationAddress, DataFrameHeader.sourceAddress, DataFrameHeader.bssid,
      FCFFlags.to_ds, FCFFlags.from_ds, getBit, DataFrameHeader.isAmsdu]),
    (by simp [DataFrameHeader.destinationAddress, DataFrameHeader.sourceAddress, DataFrameHeader.bssid,
      FCFFlags.to_ds, FCFFlags.from_ds, getBit, DataFrameHeader.isAmsdu])⟩
  simp [buildDataFrame, DataFrameBuilder.run, DataFrameBuilder.apply, DataFrameBuilder.new,
    DataFrameBuilder.blank, DataFrameBuilder.build]
  decide

/-- Violation: a frame with both flags can be built without a fourth address; it is not a proper frame. -/
theorem c29_missing_address4 (p : π) (r t d : Mac) :
    ∃ f, buildDataFrame [.to_and_from_ds, .category .Data, .payload .Bytes p, .receiver_address r,
        .transmitter_address t, .destination_address d] = some f ∧ ¬ HeaderConsistent f.header := by
  obtain ⟨f, hf, h4⟩ : ∃ f, buildDataFrame [.to_and_from_ds, .category .Data, .payload .Bytes p,
    .receiver_address r, .transmitter_address t, .destination_address d] = some f ∧
    f.header.address_4 = none := ⟨_, rfl, rfl⟩
  refine ⟨f, hf, fun h => ?_⟩
  have hd := c29_direction _ f hf
  have := h.address_4.2 ⟨hd.1, hd.2⟩
  rw [h4] at this
  simp at this

/-- Violation: asking for the order flag also gives an improper frame. -/
theorem c29_order_improper (ops : List (BuilderOp π)) (f : DataFrame π) (h : buildDataFrame ops = some f)
    (ho : BuilderOp.order ∈ ops) : ¬ HeaderConsistent f.header := by
  intro hcon
  have h7 := (c29_flags ops f h 7).2 ⟨_, ho, by simp [flagBits]⟩
  have := hcon.ht_control.2 h7
  rw [(c29_no_qos ops f h).2.1] at this
  simp at this

/-! ## Repeated calls -/

private theorem run_append (ops ops' : List (BuilderOp π)) : ∀ b : DataFrameBuilder π,
    b.run (ops ++ ops') = (b.run ops).bind fun b => b.run ops' := by
  induction ops with
  | nil => intro b; rfl
  | cons op ops ih =>
    intro b
    show (b.apply op).bind (fun b => b.run (ops ++ ops')) = ((b.apply op).bind fun b => b.run ops).bind _
    cases b.apply op with
    | none => rfl
    | some c => exact ih c

/-- A receiver or a transmitter never replaces an address: in a program which compiles, no call before it has
filled the field.  (`destination_address`, `source_address` and `bssid` are not so careful; see
`c29_replaced`.) -/
theorem c29_no_replacing (pre post : List (BuilderOp π)) (f : DataFrame π) (a : Mac)
    (hn : ¬(pre.any isFromDs = true ∧ pre.any isDestination = true)) :
    (buildDataFrame (pre ++ .receiver_address a :: post) = some f → (given pre).address .one = none) ∧
    (buildDataFrame (pre ++ .transmitter_address a :: post) = some f → (given pre).address .two = none) := by
  have key : ∀ op, buildDataFrame (pre ++ op :: post) = some f →
      ∃ b b', Agrees b (given pre) ∧ b.apply op = some b' := by
    intro op h
    obtain ⟨b, hb, -⟩ := Option.bind_eq_some_iff.1 h
    rw [run_append] at hb
    obtain ⟨c, hc, hb⟩ := Option.bind_eq_some_iff.1 hb
    obtain ⟨d, hd, -⟩ := Option.bind_eq_some_iff.1 hb
    refine ⟨c, d, run_agrees pre _ c _ ?_ hc (by simpa using hn), hd⟩
    constructor <;> simp [DataFrameBuilder.new]
  constructor
  · intro h
    obtain ⟨b, b', ha, hb⟩ := key _ h
    rw [← ha.one]
    open_apply hb
    simpa using ‹b.address_1.isNone = true›
  · intro h
    obtain ⟨b, b', ha, hb⟩ := key _ h
    rw [← ha.two]
    open_apply hb
    simpa using ‹b.address_2.isNone = true›

private theorem apply_keeps (b b' : DataFrameBuilder π) (op : BuilderOp π) (h : b.apply op = some b') :
    (b.address_1.isSome = true → b'.address_1.isSome = true) ∧
    (b.address_2.isSome = true → b'.address_2.isSome = true) := by
  cases op
  case category c =>
    simp only [DataFrameBuilder.apply] at h
    split at h
    · cases c <;> (simp only [Option.some.injEq] at h; subst h) <;> exact ⟨id, id⟩
    · simp at h
  all_goals open_apply h
  all_goals simp_all

private theorem run_keeps (ops : List (BuilderOp π)) : ∀ (b b' : DataFrameBuilder π), b.run ops = some b' →
    (b.address_1.isSome = true → b'.address_1.isSome = true) ∧
    (b.address_2.isSome = true → b'.address_2.isSome = true) := by
  induction ops with
  | nil => intro b b' h; cases h; exact ⟨id, id⟩
  | cons op ops ih =>
    intro b b' h
    obtain ⟨c, hc, h⟩ := Option.bind_eq_some_iff.1 h
    have h1 := apply_keeps b c op hc
    have h2 := ih c b' h
    exact ⟨h2.1 ∘ h1.1, h2.2 ∘ h1.2⟩

/-- Whatever the direction, no program with two receivers, or with two transmitters, compiles. -/
theorem c29_once (pre mid post : List (BuilderOp π)) (a a' : Mac) :
    buildDataFrame (pre ++ .receiver_address a :: (mid ++ .receiver_address a' :: post)) = none ∧
    buildDataFrame (pre ++ .transmitter_address a :: (mid ++ .transmitter_address a' :: post)) = none := by
  have key : ∀ op op' : BuilderOp π,
      (∀ b c d e : DataFrameBuilder π, b.apply op = some c → c.run mid = some d → d.apply op' = some e → False) →
      buildDataFrame (pre ++ op :: (mid ++ op' :: post)) = none := by
    intro op op' hno
    rw [Option.eq_none_iff_forall_ne_some]
    intro f h
    obtain ⟨z, hz, -⟩ := Option.bind_eq_some_iff.1 h
    rw [run_append] at hz
    obtain ⟨b, -, hz⟩ := Option.bind_eq_some_iff.1 hz
    obtain ⟨c, hc, hz⟩ := Option.bind_eq_some_iff.1 hz
    rw [run_append] at hz
    obtain ⟨d, hd, hz⟩ := Option.bind_eq_some_iff.1 hz
    obtain ⟨e, he, -⟩ := Option.bind_eq_some_iff.1 hz
    exact hno b c d e hc hd he
  constructor
  · refine key _ _ fun b c d e hc hd he => ?_
    have := (run_keeps mid c d hd).1 (by open_apply hc; rfl)
    open_apply he
    simp_all
  · refine key _ _ fun b c d e hc hd he => ?_
    have := (run_keeps mid c d hd).2 (by open_apply hc; rfl)
    open_apply he
    simp_all

/-- A program which meets the hypotheses of `c29_no_replacing`: the receiver comes first. -/
example (p : π) (d s b : Mac) :
    (∃ f, buildDataFrame ([.to_ds, .category .Data, .payload .Bytes p] ++ .receiver_address b ::
        [.source_address s, .destination_address d]) = some f) ∧
      ¬([BuilderOp.to_ds, .category .Data, .payload .Bytes p].any isFromDs = true ∧
        [BuilderOp.to_ds, .category .Data, .payload .Bytes p].any isDestination = true) :=
  ⟨⟨_, rfl⟩, by simp [isFromDs]⟩

/-- Violation: a destination, a source or a BSSID may be given twice, or after the receiver or transmitter
whose field it shares; the address given first is lost without a word. -/
theorem c29_replaced (p : π) (d d' s s' b b' : Mac) :
    buildDataFrame [.neither_to_nor_from_ds, .category .Data, .payload .Bytes p, .receiver_address d,
        .transmitter_address s, .bssid b, .destination_address d', .source_address s', .bssid b'] =
      buildDataFrame [.neither_to_nor_from_ds, .category .Data, .payload .Bytes p,
        .destination_address d', .source_address s', .bssid b'] ∧
    ∃ f, buildDataFrame [.neither_to_nor_from_ds, .category .Data, .payload .Bytes p,
        .destination_address d', .source_address s', .bssid b'] = some f ∧
      f.header.address_1 = d' ∧ f.header.address_2 = s' ∧ f.header.address_3 = b' :=
  ⟨rfl, _, rfl, rfl, rfl, rfl⟩

/-! ## Payload -/

/-- The payload a call gives. -/
private def opPayload : BuilderOp π → Option π
  | .payload _ p => some p
  | .payload_amsdu p => some p
  | _ => none

private theorem apply_payload (b b' : DataFrameBuilder π) (op : BuilderOp π) (h : b.apply op = some b')
    (hb : b.payload ≠ none → b.payloadType ≠ .Unit) :
    (b'.payload ≠ none → b'.payloadType ≠ .Unit) ∧
      match opPayload op with
      | some p => b.payload = none ∧ b'.payload = some p
      | none => b'.payload = b.payload := by
  have hn : b.payloadType = .Unit → b.payload = none := fun e => by
    cases hp : b.payload with
    | none => rfl
    | some p => exact absurd e (hb (by rw [hp]; simp))
  cases op
  case category c =>
    simp only [DataFrameBuilder.apply] at h
    split at h
    · rename_i hbl
      simp only [DataFrameBuilder.blank, Bool.and_eq_true, beq_iff_eq] at hbl
      have hp := hn hbl.1.1.1.1.2
      cases c <;> (simp only [Option.some.injEq] at h; subst h) <;> simp [opPayload, hp]
    · simp at h
  case payload t p =>
    open_apply h
    rename_i hc
    refine ⟨fun _ => ?_, hn hc.2.1, rfl⟩
    cases t <;> simp [GivenPayload.type]
  case payload_amsdu p =>
    open_apply h
    rename_i hc
    exact ⟨fun _ => by simp, hn hc.2.1, rfl⟩
  all_goals open_apply h
  all_goals exact ⟨hb, rfl⟩

private theorem run_payload (ops : List (BuilderOp π)) : ∀ (b b' : DataFrameBuilder π), b.run ops = some b' →
    (b.payload ≠ none → b.payloadType ≠ .Unit) → ∀ p,
    (b'.payload = some p ↔ b.payload = some p ∨ ∃ op ∈ ops, opPayload op = some p) := by
  induction ops with
  | nil => intro b b' h _ p; cases h; simp
  | cons op ops ih =>
    intro b b' h hb p
    obtain ⟨c, hc, h⟩ := Option.bind_eq_some_iff.1 h
    obtain ⟨h1, h2⟩ := apply_payload b c op hc hb
    rw [ih c b' h h1 p]
    simp only [List.mem_cons, exists_eq_or_imp]
    cases ho : opPayload op with
    | none => rw [ho] at h2; rw [h2]; simp
    | some q => rw [ho] at h2; rw [h2.1, h2.2]; simp

/-- The payload of the frame built is the one given, if any. -/
theorem c29_payload (ops : List (BuilderOp π)) (f : DataFrame π) (h : buildDataFrame ops = some f) (p : π) :
    f.payload = some p ↔ (∃ t, BuilderOp.payload t p ∈ ops) ∨ BuilderOp.payload_amsdu p ∈ ops := by
  obtain ⟨b, hb, h⟩ := Option.bind_eq_some_iff.1 h
  obtain ⟨_, _, _, _, _, _, _, _, rfl⟩ := build_some b f h
  show b.payload = some p ↔ _
  rw [run_payload ops _ b hb (by simp [DataFrameBuilder.new]) p]
  simp only [DataFrameBuilder.new, reduceCtorEq, false_or]
  constructor
  · rintro ⟨op, h1, h2⟩
    cases op <;> simp only [opPayload, Option.some.injEq, reduceCtorEq] at h2
    · subst h2; exact .inl ⟨_, h1⟩
    · subst h2; exact .inr h1
  · rintro (⟨t, h1⟩ | h1)
    · exact ⟨_, h1, rfl⟩
    · exact ⟨_, h1, rfl⟩

private structure Built (b : DataFrameBuilder π) : Prop where
  ds : b.ds = .ToAndFromDS → b.fcf_flags.bits.getLsbD 0 = true ∧ b.fcf_flags.bits.getLsbD 1 = true
  four : b.address4Type = true → b.fcf_flags.bits.getLsbD 0 = true ∧ b.fcf_flags.bits.getLsbD 1 = true
  unset : b.category = none → b.payload = none
  null : ∀ c, b.category = some c → c.hasPayload = false → b.payload = none

private theorem apply_built (b b' : DataFrameBuilder π) (op : BuilderOp π) (h : b.apply op = some b')
    (hb : Built b) : Built b' := by
  have hfl : ∀ i, b.fcf_flags.bits.getLsbD i = true → b'.fcf_flags.bits.getLsbD i = true := by
    intro i hi
    rw [apply_flags b b' op h i, hi]
    rfl
  obtain ⟨h1, h2, h3, h4⟩ := hb
  have h1' := fun e => (⟨hfl 0 (h1 e).1, hfl 1 (h1 e).2⟩ : _ ∧ _)
  have h2' := fun e => (⟨hfl 0 (h2 e).1, hfl 1 (h2 e).2⟩ : _ ∧ _)
  cases op
  case to_and_from_ds =>
    have g0 := apply_flags b b' _ h 0
    have g1 := apply_flags b b' _ h 1
    open_apply h
    refine ⟨fun _ => ?_, h2', h3, h4⟩
    simp [g0, g1, flagBits]
  case category c =>
    simp only [DataFrameBuilder.apply] at h
    split at h
    · rename_i hbl
      simp only [DataFrameBuilder.blank, Bool.and_eq_true, Option.isNone_iff_eq_none] at hbl
      have hp := h3 hbl.1.1.1.1.1
      cases c <;> (simp only [Option.some.injEq] at h; subst h) <;>
        exact ⟨h1', h2', fun e => by simp at e, fun c e hn => by first | rfl | exact hp⟩
    · simp at h
  all_goals open_apply h
  all_goals constructor
  all_goals first
    | exact h1' | exact h2' | exact h3 | exact h4
    | (intro e; simp only [reduceCtorEq] at e; done)
    | (simp_all; done)
    | (intro _; apply h1'; assumption)
    | (rename_i hb
       intro c e hn
       rw [hb.1] at e
       cases e
       cases hn)

private theorem run_built (ops : List (BuilderOp π)) : ∀ (b b' : DataFrameBuilder π), b.run ops = some b' →
    Built b → Built b' := by
  induction ops with
  | nil => intro b b' h hb; cases h; exact hb
  | cons op ops ih =>
    intro b b' h hb
    obtain ⟨c, hc, h⟩ := Option.bind_eq_some_iff.1 h
    exact ih c b' h (apply_built b c op hc hb)

private theorem new_built : Built (DataFrameBuilder.new : DataFrameBuilder π) :=
  ⟨fun h => (by cases h), fun h => (by cases h), fun _ => rfl, fun c h => (by cases h)⟩

/-- A frame of a category without data carries none. -/
theorem c29_null_payload (ops : List (BuilderOp π)) (f : DataFrame π) (h : buildDataFrame ops = some f)
    (hc : BuilderOp.category .DataNull ∈ ops ∨ BuilderOp.category .QoSNull ∈ ops) : f.payload = none := by
  obtain ⟨c', h1, _⟩ := c29_subtype ops f h
  obtain ⟨b, hb, h⟩ := Option.bind_eq_some_iff.1 h
  obtain ⟨c, a1, a2, a3, h0, _, _, _, rfl⟩ := build_some b f h
  obtain ⟨c'', h2, h3⟩ : ∃ c, (BuilderOp.category c : BuilderOp π) ∈ ops ∧ c.hasPayload = false := by
    rcases hc with hc | hc
    · exact ⟨_, hc, rfl⟩
    · exact ⟨_, hc, rfl⟩
  rcases run_category ops _ b hb with ⟨h4, _⟩ | ⟨_, d, h4, h5⟩
  · rw [h0] at h4; simp [DataFrameBuilder.new] at h4
  · rw [h0] at h4
    cases h4
    exact (run_built ops _ b hb new_built).null c h0 ((h5 c'').1 h2 ▸ h3)

/-- Exactly which frames are proper, that is, have the fields their flags and subtype announce: those without
QoS and without the order flag which have a fourth address if both direction flags are set. -/
theorem c29_proper_iff (ops : List (BuilderOp π)) (f : DataFrame π) (h : buildDataFrame ops = some f) :
    HeaderConsistent f.header ↔
      (BuilderOp.category .Data ∈ ops ∨ BuilderOp.category .DataNull ∈ ops) ∧ BuilderOp.order ∉ ops ∧
      ((given ops).to_ds = true ∧ (given ops).from_ds = true → f.header.address_4.isSome = true) := by
  have hd := c29_direction ops f h
  have hq := c29_no_qos ops f h
  obtain ⟨c, h1, h2⟩ := c29_subtype ops f h
  constructor
  · intro hc
    refine ⟨?_, fun ho => c29_order_improper ops f h ho hc, fun ho => ?_⟩
    · have := fun e => c29_qos_improper ops f h c ((h1 c).2 rfl) e hc
      cases c
      · exact Or.inl ((h1 _).2 rfl)
      · exact Or.inr ((h1 _).2 rfl)
      · exact absurd (Or.inl rfl) this
      · exact absurd (Or.inr rfl) this
    · rw [hc.address_4, hd.1, hd.2]
      exact ho
  · rintro ⟨hc, ho, h4⟩
    refine ⟨⟨fun h5 => ?_, fun h5 => h4 (by rwa [hd.1, hd.2] at h5)⟩, ?_, ?_⟩
    · obtain ⟨b, hb, h⟩ := Option.bind_eq_some_iff.1 h
      obtain ⟨_, a1, a2, a3, _, _, _, _, rfl⟩ := build_some b f h
      refine (run_built ops _ b hb new_built).four ?_
      revert h5
      cases b.address4Type <;> simp
    · rw [hq.1, qosSubtype, h2]
      rcases hc with hc | hc <;> (cases (h1 _).1 hc; decide)
    · rw [hq.2.1]
      have : f.header.fcf_flags.order = false := by
        rw [Bool.eq_false_iff]
        intro e
        obtain ⟨op, h5, h6⟩ := (c29_flags ops f h 7).1 e
        cases op <;> simp [flagBits] at h6
        exact ho h5
      simp [this]

/-- Both `c29_null_payload` and `c29_proper_iff` speak of frames that can be built. -/
example (d s b : Mac) : (buildDataFrame (π := Bytes) [.neither_to_nor_from_ds, .category .DataNull,
    .destination_address d, .source_address s, .bssid b]).isSome = true ∧
    (buildDataFrame [.to_and_from_ds, .category .Data, .payload .Bytes ([1] : Bytes), .receiver_address d,
      .transmitter_address b, .destination_address s, .source_address s]).isSome = true := ⟨rfl, rfl⟩

private structure NullStuck (b : DataFrameBuilder π) : Prop where
  flag : b.fcf_flags.to_ds = true → b.ds = .ToDS ∨ b.ds = .ToAndFromDS
  type : b.payloadType = .Bytes ∨ b.payloadType = .AMSDU ∨ b.payloadType = .Other →
    ∃ c, b.category = some c ∧ c.hasPayload = true
  empty : b.payloadType ≠ .Bytes → b.payloadType ≠ .AMSDU →
    b.ds = .Undecided ∨ b.ds = .ToDS ∨ b.ds = .ToAndFromDS → b.address_3 = none

private theorem apply_stuck (b b' : DataFrameBuilder π) (op : BuilderOp π) (hb : NullStuck b)
    (h : b.apply op = some b') : NullStuck b' := by
  obtain ⟨hf, ht, he⟩ := hb
  obtain ⟨ds, cat, pt, a1, a2, a3, t4, a4, p, fl⟩ := b
  have hfl : ∀ v, (fl.with_more_fragments v).to_ds = fl.to_ds ∧ (fl.with_retry v).to_ds = fl.to_ds ∧
      (fl.with_pwr_mgmt v).to_ds = fl.to_ds ∧ (fl.with_more_data v).to_ds = fl.to_ds ∧
      (fl.with_protected_ v).to_ds = fl.to_ds ∧ (fl.with_order v).to_ds = fl.to_ds ∧
      (fl.with_from_ds v).to_ds = fl.to_ds := by
    intro v
    refine ⟨?_, ?_, ?_, ?_, ?_, ?_, ?_⟩ <;> exact getBit_setBit_other _ _ _ _ (by decide) (by decide)
  simp only at hf ht he
  cases op
  case payload t p =>
    open_apply h
    rename_i hc
    exact ⟨hf, fun _ => ⟨_, rfl, hc.1⟩, fun _ _ _ => rfl⟩
  case category c =>
    simp only [DataFrameBuilder.apply] at h
    split at h
    · rename_i hb
      simp only [DataFrameBuilder.blank] at hb
      simp only [Option.some.injEq] at h
      subst h
      cases c <;> constructor <;> simp_all
    · simp at h
  all_goals cases ds
  all_goals open_apply h
  all_goals first
    | (exfalso; simp_all; done)
    | (constructor <;> simp_all [DataFrameBuilder.blank, DataCategory.hasPayload]; done)

private theorem run_stuck (ops : List (BuilderOp π)) : ∀ (b b' : DataFrameBuilder π), NullStuck b →
    b.run ops = some b' → NullStuck b' := by
  induction ops with
  | nil => intro b b' hb h; cases h; exact hb
  | cons op ops ih =>
    intro b b' hb h
    obtain ⟨m, hm, h'⟩ := Option.bind_eq_some_iff.1 h
    exact ih m b' (apply_stuck b m op hb hm) h'

/-- Violation: no program builds a frame without payload which goes to the DS, such as the Null frame a
station announces power saving with: there is no way to give its third address. -/
theorem c29_null_to_ds_unbuildable (ops : List (BuilderOp π)) (c : DataCategory)
    (hc : BuilderOp.category c ∈ ops) (hnull : c = .DataNull ∨ c = .QoSNull)
    (ht : BuilderOp.to_ds ∈ ops ∨ BuilderOp.to_and_from_ds ∈ ops) : buildDataFrame ops = none := by
  cases h : buildDataFrame ops with
  | none => rfl
  | some f =>
    exfalso
    have hflag : f.header.fcf_flags.to_ds = true := by
      apply (c29_flags ops f h 0).2
      rcases ht with ht | ht
      · exact ⟨_, ht, by simp [flagBits]⟩
      · exact ⟨_, ht, by simp [flagBits]⟩
    obtain ⟨b, hb, h⟩ := Option.bind_eq_some_iff.1 h
    have hs : NullStuck b := run_stuck ops _ b (by constructor <;> simp [DataFrameBuilder.new, FCFFlags.to_ds, getBit]) hb
    obtain ⟨c', a1, a2, a3, h0, h1, h2, h3, rfl⟩ := build_some b f h
    have hcc : c' = c := by
      rcases run_category ops _ b hb with ⟨h1, _⟩ | ⟨_, d, h1, h2⟩
      · rw [h0] at h1; simp [DataFrameBuilder.new] at h1
      · rw [h0] at h1; cases h1; exact ((h2 c).1 hc).symm
    subst hcc
    have hno : ¬(b.payloadType = .Bytes ∨ b.payloadType = .AMSDU ∨ b.payloadType = .Other) := by
      intro hp
      obtain ⟨d, hd, hp⟩ := hs.type hp
      rw [h0] at hd
      cases hd
      rcases hnull with rfl | rfl <;> simp [DataCategory.hasPayload] at hp
    have := hs.empty (fun e => hno (Or.inl e)) (fun e => hno (Or.inr (Or.inl e))) (Or.inr (hs.flag hflag))
    rw [h3] at this
    simp at this

example : ([.to_ds, .category .DataNull, .receiver_address ⟨[1, 2, 3, 4, 5, 6], rfl⟩] :
    List (BuilderOp Unit)).length = 3 ∧
    (DataFrameBuilder.new.run [.to_ds, .category .DataNull, .receiver_address ⟨[1, 2, 3, 4, 5, 6], rfl⟩,
      (.source_address ⟨[1, 2, 3, 4, 5, 6], rfl⟩ : BuilderOp Unit)]).isSome = true := by decide

private theorem run_undecided (ops : List (BuilderOp π)) : ∀ b b' : DataFrameBuilder π, b.run ops = some b' →
    b.category = none → (∀ c, BuilderOp.category c ∉ ops) → b'.category = none := by
  induction ops with
  | nil => intro b b' h hb _; cases h; exact hb
  | cons op ops ih =>
    intro b b' h hb hn
    obtain ⟨m, hm, h'⟩ := Option.bind_eq_some_iff.1 h
    refine ih m b' h' ?_ fun c hc => hn c (by simp [hc])
    cases op
    case category c => exact absurd List.mem_cons_self (hn c)
    all_goals open_apply hm
    all_goals first
      | exact hb
      | simp_all

/-- Before the category of the frame is chosen there is nothing to be said about its payload, or about who sent it to
whom in which network: a program that does so does not compile. -/
theorem c29_category_first (ops : List (BuilderOp π)) (h : ∀ c, BuilderOp.category c ∉ ops) (op : BuilderOp π)
    (ho : (∃ a, op = .destination_address a ∨ op = .source_address a ∨ op = .bssid a) ∨
      ∃ p, op = .payload_amsdu p ∨ ∃ t, op = .payload t p) :
    DataFrameBuilder.new.run (ops ++ [op]) = none := by
  have happ : ∀ (l : List (BuilderOp π)) (b : DataFrameBuilder π), b.run (l ++ [op]) = (b.run l).bind fun b => b.apply op := by
    intro l
    induction l with
    | nil => intro b; simp [DataFrameBuilder.run]
    | cons x l ih =>
      intro b
      simp only [List.cons_append, DataFrameBuilder.run]
      cases b.apply x with
      | none => rfl
      | some m => exact ih m
  rw [happ]
  cases hr : DataFrameBuilder.new.run ops with
  | none => rfl
  | some b =>
    have hb := run_undecided ops _ b hr rfl h
    rcases ho with ⟨a, rfl | rfl | rfl⟩ | ⟨p, rfl | ⟨t, rfl⟩⟩ <;> simp [DataFrameBuilder.apply, hb]

/-- With the category before it, the same call is accepted. -/
example : (DataFrameBuilder.new.run [.neither_to_nor_from_ds, .bssid (Arr.zero 6), (.category .Data : BuilderOp Unit)]).isNone ∧
    (DataFrameBuilder.new.run [.neither_to_nor_from_ds, .category .Data, (.bssid (Arr.zero 6) : BuilderOp Unit)]).isSome :=
  ⟨by rfl, by rfl⟩

private theorem apply_other (b b' : DataFrameBuilder π) (op : BuilderOp π) (h : b.apply op = some b')
    (hb : b.payloadType = .Other ∨ ∃ p, op = .payload .Other p) : b'.payloadType = .Other := by
  rcases hb with hb | ⟨p, rfl⟩
  · cases op
    case category c =>
      simp [DataFrameBuilder.apply, DataFrameBuilder.blank, hb] at h
    all_goals open_apply h
    all_goals first
      | exact hb
      | (exfalso; simp_all [DataFrameBuilder.blank]; done)
  · open_apply h
    rfl

private theorem run_other (ops : List (BuilderOp π)) : ∀ (b b' : DataFrameBuilder π), b.run ops = some b' →
    (b.payloadType = .Other ∨ ∃ p, BuilderOp.payload .Other p ∈ ops) → b'.payloadType = .Other := by
  induction ops with
  | nil => intro b b' h hb; cases h; simpa using hb
  | cons op ops ih =>
    intro b b' h hb
    obtain ⟨m, hm, h'⟩ := Option.bind_eq_some_iff.1 h
    refine ih m b' h' ?_
    rcases hb with hb | ⟨p, hp⟩
    · exact .inl (apply_other b m op hm (.inl hb))
    · rcases List.mem_cons.1 hp with hp | hp
      · exact .inl (apply_other b m op hm (.inr ⟨p, hp.symm⟩))
      · exact .inr ⟨p, hp⟩

/-- Violation: `payload` takes any payload that can be written, such as an LLC frame or an encrypted one,
but no program builds a frame to the DS around it: the third address can only be given when the payload
is a plain slice or an A-MSDU. -/
theorem c29_payload_to_ds_unbuildable (ops : List (BuilderOp π)) (p : π)
    (hp : BuilderOp.payload .Other p ∈ ops)
    (ht : BuilderOp.to_ds ∈ ops ∨ BuilderOp.to_and_from_ds ∈ ops) : buildDataFrame ops = none := by
  cases h : buildDataFrame ops with
  | none => rfl
  | some f =>
    exfalso
    have hflag : f.header.fcf_flags.to_ds = true := by
      apply (c29_flags ops f h 0).2
      rcases ht with ht | ht
      · exact ⟨_, ht, by simp [flagBits]⟩
      · exact ⟨_, ht, by simp [flagBits]⟩
    obtain ⟨b, hb, h⟩ := Option.bind_eq_some_iff.1 h
    have hs : NullStuck b := run_stuck ops _ b (by constructor <;> simp [DataFrameBuilder.new, FCFFlags.to_ds, getBit]) hb
    have ho := run_other ops _ b hb (.inr ⟨p, hp⟩)
    obtain ⟨c', a1, a2, a3, h0, h1, h2, h3, rfl⟩ := build_some b f h
    have := hs.empty (by rw [ho]; simp) (by rw [ho]; simp) (Or.inr (hs.flag hflag))
    rw [h3] at this
    simp at this

/-- Such a payload can be given, and frames which stay outside the DS carry it. -/
example (d s b : Mac) : (DataFrameBuilder.new.run [.to_ds, .category .Data, .payload .Other ([1] : Bytes),
      .receiver_address d, .transmitter_address s]).isSome = true ∧
    (buildDataFrame [.neither_to_nor_from_ds, .category .Data, .payload .Other ([1] : Bytes),
      .destination_address d, .source_address s, .bssid b]).isSome = true := ⟨rfl, rfl⟩

end Verif
