import Verif.Props.C47
import Verif.Props.C54
import Verif.Props.C65
import Verif.Props.C91
/-!
# C92: the rates of a network are understood

A beacon has the rates of the network in two elements, the first eight in the supported rates element and the others in the
extended one (9.4.2.3, 9.4.2.13).  A station joins if it has all the rates that are marked as required.  Neither
program is in the crate; they are written here with the functions of the crate.
-/
namespace Verif

namespace Spec

/-- What an octet of a rates element says by 9.4.2.3: a rate in units of 500 kbit/s, and whether it is in the basic rate set,
so that all stations of the network need it; or, for the numbers of the table of BSS membership selectors, a feature that
they need. -/
inductive RateClaim where
  | rate (kbps : Nat) (required : Bool)
  | feature (number : Nat)
  deriving DecidableEq, Repr

def claimOf (octet : Byte) : RateClaim :=
  if 128 + 123 ≤ octet.toNat then .feature (octet.toNat - 128)
  else .rate (octet.toNat % 128 * 500) (decide (128 ≤ octet.toNat))

/-- A station with these rates and features can join a network that says this. -/
def canJoin (rates features : List Nat) (l : List RateClaim) : Bool :=
  l.all fun
    | .rate kbps required => !required || rates.contains kbps
    | .feature n => features.contains n

/-- The rates of DSSS and HR/DSSS, that is of 802.11b. -/
def ratesOfB : List Nat := [1000, 2000, 5500, 11000]

/-- Loop over the rates. -/
def collectRates : Nat → RatesReadIterator → Res (List EncodedRate)
  | 0, _ => .ok []
  | n + 1, it => do
    match ← it.next with
    | (none, _) => pure []
    | (some r, it) => do
      let l ← collectRates n it
      pure (r :: l)

/-- The same loop, if the element is there. -/
def collectFound : Option RatesReadIterator → Res (List EncodedRate)
  | none => .ok []
  | some it => collectRates 256 it

/-- The elements of an access point for its rates. -/
def rateItems [ScrollRule] (l : List EncodedRate) : Option (ChainItem × List ChainItem) := do
  let s ← newSupportedRates (l.take 8)
  if l.length ≤ 8 then pure (.typed (supportedRatesElem s), [])
  else
    let e ← newExtendedSupportedRates (l.drop 8)
    pure (.typed (supportedRatesElem s), [.typed (extendedSupportedRatesElem e)])

variable [ScrollRule] [Crc32]

/-- The beacon. -/
def beaconOfRates (h : ManagementFrameHeader) (b : BeaconLikeBody Unit) (before after : List ChainItem)
    (l : List EncodedRate) (fcs : Bool) (buf : Bytes) : Res Bytes :=
  match rateItems l with
  | none => .err .badInput
  | some (i, is) => do
    let (out, n) ← beaconWith h b (chainAround before (is ++ after) i) fcs buf
    pure (out.take n)

/-- What a station hears in it. -/
def heardRates (fcs : Bool) (frame : Bytes) : Res (List EncodedRate) := do
  let r ← matchFrames frame (if fcs then some true else none)
    [armOf MgmtKind.Beacon.frame (readMgmtFrame readBeaconLike) fun r => r.2.elements]
  let s ← getFirstElement r.2 supportedRatesKind
  let e ← getFirstElement r.2 extendedSupportedRatesKind
  let a ← collectFound s
  let b ← collectFound e
  pure (a ++ b)

omit [Crc32] in
/-- The station's decision. -/
def joins (rates : List Nat) (l : List EncodedRate) : Bool := l.all fun r => !r.is_b || rates.contains r.rateInKbps

/-- Other elements: written as they are, and not rates. -/
structure OtherElements (before after : List (ChainItem × RawElement)) : Prop where
  items : ∀ p ∈ before ++ after, (∃ x, ItemOf p.1 p.2 x) ∧ p.2.tlv_type ≠ 1 ∧ p.2.tlv_type ≠ 50
  last : ∀ p, after.getLast? = some p → slack ≤ p.2.slice.length

end Spec

open Spec

private theorem collect_yields {it : RatesReadIterator} {l : List EncodedRate} (h : RatesYields it l) (n : Nat)
    (hn : l.length < n) : collectRates n it = .ok l := by
  induction h generalizing n with
  | done h =>
    cases n with
    | zero => omega
    | succ n => simp only [collectRates, h, Res.ok_bind]; rfl
  | more h t ih =>
    cases n with
    | zero => omega
    | succ n =>
      simp only [List.length_cons] at hn
      simp only [collectRates, h, Res.ok_bind, ih n (by omega)]
      rfl

variable [ScrollRule] [Crc32]

/-- Whatever rates an access point has, up to two hundred and fifty-nine, a station hears exactly these from its beacon, in
order.  Partial: HT control must agree with the order bit, and under the strict rule of `scroll` the last element must not be
empty. -/
theorem c92_heard_partial (h : ManagementFrameHeader) (hc : HtConsistent h) (b : BeaconLikeBody Unit)
    (before after : List (ChainItem × RawElement)) (ho : OtherElements before after) (l : List EncodedRate)
    (hne : l ≠ []) (hl : l.length ≤ 259) (fcs : Bool) :
    ∃ size, ∀ buf : Bytes, size ≤ buf.length → ∃ frame,
      beaconOfRates h b (before.map Prod.fst) (after.map Prod.fst) l fcs buf = .ok frame ∧
      heardRates fcs frame = .ok l := by
  have hsl := slack_le
  have hpos : 0 < l.length := List.length_pos_iff.2 hne
  have hnew : newSupportedRates (l.take 8) = some ⟨l.take 8⟩ := by
    rw [newSupportedRates, if_pos (by simp; omega)]
  obtain ⟨it, ht, hit⟩ := c54_supported_rates (l.take 8) _ hnew (by simp; omega)
  obtain ⟨x, hx⟩ := ht.item
  have hcol : collectRates 256 it = .ok (l.take 8) := collect_yields ((hit _).2 rfl) _ (by simp; omega)
  by_cases h8 : l.length ≤ 8
  · obtain ⟨y, hch⟩ := chainAround_of before after (fun p hp => (ho.items p hp).1) _ _ x hx
    obtain ⟨size, hA⟩ := c65_bodies_partial.2.2.2.2.1 h hc
      ⟨b.timestamp, b.beacon_interval, b.capabilities_info, (chainAround (before.map Prod.fst) (after.map Prod.fst)
        (.typed (supportedRatesElem ⟨l.take 8⟩))).obj⟩ _ _ y rfl hch (by
          intro r hr
          rw [List.getLast?_append, List.getLast?_cons] at hr
          cases hg : (after.map Prod.snd).getLast? with
          | none =>
            rw [hg] at hr
            simp at hr
            subst hr
            simp; omega
          | some r' =>
            rw [hg] at hr
            simp at hr
            subst hr
            rw [List.getLast?_map] at hg
            obtain ⟨p, hp, rfl⟩ := Option.map_eq_some_iff.1 hg
            exact ho.last p hp) trivial fcs Bytes (fun r => r.2.elements) [] [] (by simp)
    refine ⟨size, fun buf hb => ?_⟩
    obtain ⟨out, n, els, h1, h2, h3⟩ := hA buf hb
    refine ⟨out.take n, ?_, ?_⟩
    · simp only [beaconOfRates, rateItems, hnew, h8, if_true, Option.bind_eq_bind, Option.bind_some, Option.pure_def,
        beaconWith, List.nil_append]
      erw [h1]
      rfl
    · have h4 := ht.found els _ _ h3 (by
        intro r hr
        obtain ⟨p, hp, rfl⟩ := List.mem_map.1 hr
        exact (ho.items p (by simp [hp])).2.1)
      have h5 : getFirstElement els extendedSupportedRatesKind = .ok none := by
        refine (c07_first_none h3 extendedSupportedRatesKind (by simp [extendedSupportedRatesKind]) (fun p hp => ?_)).2
          fun p hp => ?_
        · simp only [extendedSupportedRatesKind, readExtendedSupportedRates] at hp
          split at hp <;> cases hp
        · exfalso
          rcases List.mem_append.1 hp with hp | hp
          · obtain ⟨q, hq, he⟩ := List.mem_map.1 hp
            exact (ho.items q (by simp [hq])).2.2 (by rw [he]; rfl)
          · rcases List.mem_cons.1 hp with he | hp
            · exact absurd (congrArg RawElement.tlv_type he) (by simp [rawOf, extendedSupportedRatesKind, ElementName.number])
            · obtain ⟨q, hq, he⟩ := List.mem_map.1 hp
              exact (ho.items q (by simp [hq])).2.2 (by rw [he]; rfl)
      simp only [heardRates]
      erw [h2]
      simp only [Res.ok_bind, h4, h5, collectFound, hcol]
      rw [List.take_of_length_le h8]
      simp
  · have hnew' : newExtendedSupportedRates (l.drop 8) = some ⟨l.drop 8⟩ := by
      rw [newExtendedSupportedRates, if_pos (by simp; omega)]
    obtain ⟨it', ht', hit'⟩ := c54_extended_rates (l.drop 8) _ hnew' (by simp; omega)
    obtain ⟨x', hx'⟩ := ht'.item
    have hcol' : collectRates 256 it' = .ok (l.drop 8) := collect_yields ((hit' _).2 rfl) _ (by simp; omega)
    obtain ⟨y, hch⟩ := chainAround_of before ((.typed (extendedSupportedRatesElem ⟨l.drop 8⟩), _) :: after) (by
      intro p hp
      rcases List.mem_append.1 hp with hp | hp
      · exact (ho.items p (by simp [hp])).1
      · rcases List.mem_cons.1 hp with rfl | hp
        · exact ⟨x', hx'⟩
        · exact (ho.items p (by simp [hp])).1) _ _ x hx
    obtain ⟨size, hA⟩ := c65_bodies_partial.2.2.2.2.1 h hc
      ⟨b.timestamp, b.beacon_interval, b.capabilities_info, (chainAround (before.map Prod.fst)
        ((.typed (extendedSupportedRatesElem ⟨l.drop 8⟩)) :: after.map Prod.fst)
        (.typed (supportedRatesElem ⟨l.take 8⟩))).obj⟩ _ _ y rfl hch (by
          intro r hr
          rw [List.map_cons, List.getLast?_append, List.getLast?_cons, List.getLast?_cons] at hr
          cases hg : (after.map Prod.snd).getLast? with
          | none =>
            rw [hg] at hr
            simp at hr
            subst hr
            simp; omega
          | some r' =>
            rw [hg] at hr
            simp at hr
            subst hr
            rw [List.getLast?_map] at hg
            obtain ⟨p, hp, rfl⟩ := Option.map_eq_some_iff.1 hg
            exact ho.last p hp) trivial fcs Bytes (fun r => r.2.elements) [] [] (by simp)
    refine ⟨size, fun buf hb => ?_⟩
    obtain ⟨out, n, els, h1, h2, h3⟩ := hA buf hb
    refine ⟨out.take n, ?_, ?_⟩
    · simp only [beaconOfRates, rateItems, hnew, h8, if_false, hnew', Option.bind_eq_bind, Option.bind_some, Option.pure_def,
        beaconWith, List.cons_append, List.nil_append]
      erw [h1]
      rfl
    · have h4 := ht.found els _ _ h3 (by
        intro r hr
        obtain ⟨p, hp, rfl⟩ := List.mem_map.1 hr
        exact (ho.items p (by simp [hp])).2.1)
      have h5 := ht'.found els (before.map Prod.snd ++ [⟨ElementName.supportedRates.number, (l.take 8).map EncodedRate.bits⟩])
        (after.map Prod.snd) (by simpa using h3) (by
        intro r hr
        rcases List.mem_append.1 hr with hr | hr
        · obtain ⟨p, hp, rfl⟩ := List.mem_map.1 hr
          exact (ho.items p (by simp [hp])).2.2
        · obtain rfl := List.mem_singleton.1 hr
          simp [ElementName.number])
      simp only [heardRates]
      erw [h2]
      simp only [Res.ok_bind, h4, h5, collectFound, hcol, hcol']
      rw [List.take_append_drop]
      rfl

omit [ScrollRule] [Crc32] in
/-- For all octets but those of features, the crate's accessors give rate and flag by the standard. -/
theorem c92_claims_partial (r : EncodedRate) (h : r.bits.toNat < 128 + 123) :
    claimOf r.bits = .rate r.rateInKbps r.is_b := by
  have key : ∀ b : Byte, b.toNat < 251 → claimOf b = .rate (EncodedRate.rateInKbps ⟨b⟩) (EncodedRate.is_b ⟨b⟩) := by
    decide +kernel
  exact key r.bits h

omit [ScrollRule] [Crc32] in
/-- The octet for a rate says that rate: required ones up to 61000 kbit/s, others up to 63500. -/
theorem c92_sent_partial (k : Nat) (required : Bool) (hk : k ≤ 127) (h : required = true → k < 123) :
    ∃ r, EncodedRate.fromRateInKbps (k * 500) required = .ok r ∧ claimOf r.bits = .rate (k * 500) required := by
  obtain ⟨r, h1, h2, h3, h4⟩ := c47_round_trip k (by omega) required
  refine ⟨r, h1, ?_⟩
  rw [c92_claims_partial r, h2, h3]
  rw [h4]
  cases required
  · simp; omega
  · have := h rfl
    simp; omega

omit [ScrollRule] [Crc32] in
/-- So a station decides rightly whether it can join a network that needs no feature. -/
theorem c92_join_partial (rates features : List Nat) (l : List EncodedRate) (h : ∀ r ∈ l, r.bits.toNat < 128 + 123) :
    joins rates l = canJoin rates features (l.map fun r => claimOf r.bits) := by
  induction l with
  | nil => rfl
  | cons r l ih =>
    have ih := ih fun r hr => h r (by simp [hr])
    simp only [joins, canJoin, List.map_cons, List.all_cons] at ih ⊢
    rw [ih, c92_claims_partial r (h r (by simp))]

omit [ScrollRule] [Crc32] in
/-- Violation: features are taken for rates.  If a network needs a feature, the octet for it is a required rate above 61
Mbit/s to the crate; as there is no such rate, no station joins, even if it has the feature and all rates. -/
theorem c92_feature_wrong (n : Nat) (hn : 123 ≤ n ∧ n < 128) (rates : List Nat) (hr : ∀ r ∈ rates, r ≤ 54000)
    (l : List EncodedRate) (hl : ⟨BitVec.ofNat 8 (128 + n)⟩ ∈ l) :
    claimOf (BitVec.ofNat 8 (128 + n)) = .feature n ∧ joins rates l = false ∧
    ((∀ r ∈ l, r.bits.toNat ≠ 128 + n → canJoin rates [] [claimOf r.bits] = true) →
      canJoin rates [n] (l.map fun r => claimOf r.bits) = true) := by
  have key : ∀ n : Fin 5, claimOf (BitVec.ofNat 8 (128 + (123 + n.val))) = .feature (123 + n.val) ∧
      EncodedRate.is_b ⟨BitVec.ofNat 8 (128 + (123 + n.val))⟩ = true ∧
      54000 < EncodedRate.rateInKbps ⟨BitVec.ofNat 8 (128 + (123 + n.val))⟩ := by decide +kernel
  obtain ⟨h1, h2, h3⟩ := key ⟨n - 123, by omega⟩
  simp only [show 123 + (n - 123) = n by omega] at h1 h2 h3
  refine ⟨h1, ?_, fun h => ?_⟩
  · rw [Bool.eq_false_iff]
    intro hj
    have := List.all_eq_true.1 hj _ hl
    simp only [h2, Bool.not_true, Bool.false_or, List.contains_iff_mem] at this
    have := hr _ this
    omega
  · simp only [canJoin, List.all_eq_true, List.mem_map]
    rintro c ⟨r, hr, rfl⟩
    by_cases he : r.bits.toNat = 128 + n
    · have : r.bits = BitVec.ofNat 8 (128 + n) := by
        apply BitVec.eq_of_toNat_eq
        rw [he, BitVec.toNat_ofNat]
        omega
      rw [this, h1]
      simp
    · have := h r hr he
      simp only [canJoin, List.all_cons, List.all_nil, Bool.and_true] at this
      cases hcl : claimOf r.bits with
      | rate a b => rw [hcl] at this; exact this
      | feature m => rw [hcl] at this; simp at this

omit [ScrollRule] [Crc32] in
/-- Violation: the flag is not what its documentation says, "Is the data rate IEEE 802.11b."  It is set in required rates and
in these only: set for the required 6 Mbit/s of a network without 802.11b, and not set for 11 Mbit/s where this is not
required. -/
theorem c92_flag_wrong : ¬ (∀ r : EncodedRate, r.is_b = true → r.rateInKbps ∈ ratesOfB) ∧
    ¬ (∀ r : EncodedRate, r.rateInKbps ∈ ratesOfB → r.is_b = true) :=
  ⟨fun h => absurd (h ⟨0x8c⟩ (by decide)) (by decide), fun h => absurd (h ⟨0x16⟩ (by decide)) (by decide)⟩

/-! ## Concrete cases -/

omit [ScrollRule] [Crc32] in
/-- The twelve rates of a network with 802.11b and g, four of them required; a beacon is heard with its rates; a station
with all rates joins, one without 5.5 Mbit/s does not; neither does any if the HT feature is required. -/
example (s : Bool) :
    letI : ScrollRule := ⟨s⟩
    letI : Crc32 := ⟨fun _ => 0⟩
    let l : List EncodedRate := [⟨0x82⟩, ⟨0x84⟩, ⟨0x8b⟩, ⟨0x96⟩, ⟨12⟩, ⟨18⟩, ⟨24⟩, ⟨36⟩, ⟨48⟩, ⟨72⟩, ⟨96⟩, ⟨108⟩]
    let frame := beaconOfRates ⟨⟨0⟩, 0, Arr.zero 6, Arr.zero 6, Arr.zero 6, ⟨0⟩, none⟩ ⟨0, 100, ⟨1⟩, ()⟩
      [.raw ⟨0, [0x61]⟩] [.raw ⟨3, [6]⟩] l true (List.replicate 200 7)
    (do let f ← frame; heardRates true f) = .ok l ∧ joins [1000, 2000, 5500, 11000, 6000] l = true ∧
    joins [1000, 2000, 11000] l = false ∧ joins [1000, 2000, 5500, 11000, 6000] (l ++ [⟨0xff⟩]) = false ∧
    canJoin [1000, 2000, 5500, 11000, 6000] [127] ((l ++ [(⟨0xff⟩ : EncodedRate)]).map fun r => claimOf r.bits) = true := by
  cases s <;> exact ⟨by decide +kernel, by decide, by decide, by decide, by decide⟩

omit [Crc32] in
/-- Other elements that meet the hypothesis. -/
example : OtherElements [(.raw ⟨0, [0x61]⟩, ⟨0, [0x61]⟩)] [(.raw ⟨3, [6]⟩, ⟨3, [6]⟩)] := by
  have hs := slack_le
  constructor
  · intro p hp
    simp only [List.cons_append, List.nil_append, List.mem_cons, List.not_mem_nil, or_false] at hp
    rcases hp with rfl | rfl
    · exact ⟨⟨_, .raw _ (by decide)⟩, by decide, by decide⟩
    · exact ⟨⟨_, .raw _ (by decide)⟩, by decide, by decide⟩
  · intro p hp
    simp only [List.getLast?_singleton, Option.some.injEq] at hp
    subst hp
    simp; omega

end Verif
