import Verif.Model.Elements.Compare
import Verif.Props.C11
import Verif.Props.C16
import Verif.Props.C17
/-!
# C55: comparing elements held in different containers
-/
namespace Verif

namespace Spec

/-- Calling `next` repeatedly returns the items of the list in order, then `None`. -/
inductive Items {α σ : Type} (next : σ → Res (Option α × σ)) : σ → List α → Prop where
  | done {s s' : σ} (h : next s = .ok (none, s')) : Items next s []
  | more {s s' : σ} {a : α} {l : List α} (h : next s = .ok (some a, s')) (t : Items next s' l) :
      Items next s (a :: l)

/-- What a container stands for. -/
abbrev Holds {C α : Type} (c : Container C α) (x : C) (l : List α) : Prop := Items c.next x l

/-- A container which can always be iterated to its end. -/
structure Lawful {C α : Type} (c : Container C α) : Prop where
  items : ∀ x, ∃ l, Holds c x l
  bound : ∀ x l, Holds c x l → l.length < c.bound x

/-- An optional list. -/
def HoldsOpt {C α : Type} (c : Container C α) : Option C → Option (List α) → Prop
  | none, none => True
  | some x, some l => Holds c x l
  | _, _ => False

/-- The contents of an RSN element, whatever its containers. -/
structure RsnHolds {P A M : Type} (cp : Container P IEEE80211CipherSuiteSelector)
    (ca : Container A IEEE80211AkmType) (cm : Container M (Arr 16)) (e : RsnElement P A M)
    (v : RsnElement.OfLists) : Prop where
  group : e.group_data_cipher_suite = v.group_data_cipher_suite
  pairwise : HoldsOpt cp e.pairwise_cipher_suite_list v.pairwise_cipher_suite_list
  akm : HoldsOpt ca e.akm_list v.akm_list
  capabilities : e.rsn_capbilities = v.rsn_capbilities
  pmkid : HoldsOpt cm e.pmkid_list v.pmkid_list
  management : e.group_management_cipher_suite = v.group_management_cipher_suite

end Spec

open Spec

/-! ## Iteration -/

theorem Spec.Items.unique {α σ : Type} {next : σ → Res (Option α × σ)} {s : σ} {l l' : List α}
    (h : Items next s l) (h' : Items next s l') : l = l' := by
  induction h generalizing l' with
  | done h =>
    cases h' with
    | done _ => rfl
    | more h2 _ => rw [h] at h2; cases h2
  | more h t ih =>
    cases h' with
    | done h2 => rw [h] at h2; cases h2
    | more h2 t2 => rw [h] at h2; cases h2; rw [ih t2]

/-- Comparing two iterators compares the sequences of their items. -/
theorem iterEq_items {α σ τ : Type} [DecidableEq α] {f : σ → Res (Option α × σ)}
    {g : τ → Res (Option α × τ)} {s : σ} {t : τ} {l m : List α} (hl : Items f s l) (hm : Items g t m)
    (fuel : Nat) (hf : l.length < fuel) : iterEq f g fuel s t = .ok (decide (l = m)) := by
  induction hl generalizing t m fuel with
  | done h =>
    obtain ⟨k, rfl⟩ : ∃ k, fuel = k + 1 := ⟨fuel - 1, by simp at hf; omega⟩
    cases hm with
    | done h2 => simp [iterEq, h, h2]
    | more h2 _ => simp [iterEq, h, h2]
  | more h ht ih =>
    obtain ⟨k, rfl⟩ : ∃ k, fuel = k + 1 := ⟨fuel - 1, by simp at hf; omega⟩
    cases hm with
    | done h2 => simp [iterEq, h, h2]
    | more h2 t2 =>
      simp only [iterEq, h, h2, Res.ok_bind]
      split
      · rename_i hab
        rw [ih t2 k (by simp at hf; omega)]
        simp [hab]
      · rename_i hab
        simp [hab]

/-- Comparing two containers. -/
theorem Container.eq_holds {α C D : Type} [DecidableEq α] {c : Container C α} {d : Container D α}
    (hc : Lawful c) {x : C} {y : D} {l m : List α} (hx : Holds c x l) (hy : Holds d y m) :
    c.eq d x y = .ok (decide (l = m)) :=
  iterEq_items hx hy _ (hc.bound x l hx)

theorem list_lawful {α : Type} : Lawful (listContainer : Container (List α) α) := by
  have h : ∀ l : List α, Holds listContainer l l := by
    intro l
    induction l with
    | nil => exact .done (s' := []) rfl
    | cons a l ih => exact .more (s' := l) rfl ih
  exact ⟨fun l => ⟨l, h l⟩, fun l m hm => by rw [hm.unique (h l)]; exact Nat.lt_succ_self _⟩

theorem holds_list {α : Type} (l m : List α) : Holds listContainer l m ↔ m = l := by
  have h : ∀ l : List α, Holds listContainer l l := by
    intro l
    induction l with
    | nil => exact .done (s' := []) rfl
    | cons a l ih => exact .more (s' := l) rfl ih
  exact ⟨fun hm => hm.unique (h l), fun hm => hm ▸ h l⟩

theorem holds_read {α : Type} {r : Reader α} {it : ReadIterator} {l : List α} :
    Holds (readContainer r) it l ↔ Yields r it l := by
  constructor
  · intro h
    induction h with
    | done h => exact .done h
    | more h _ ih => exact .more h ih
  · intro h
    induction h with
    | done h => exact .done h
    | more h _ ih => exact .more h ih

theorem yields_length {α : Type} {r : Reader α} (hp : Progress r) {it : ReadIterator} {l : List α}
    (h : Yields r it l) : l.length ≤ (it.bytes.getD []).length := by
  induction h with
  | done _ => simp
  | @more it it' a l h _ ih =>
    obtain ⟨bytes⟩ := it
    cases bytes with
    | none => simp [ReadIterator.next] at h
    | some bytes =>
      simp only [ReadIterator.next] at h
      split at h
      · rename_i ret off hr
        split at h
        · rename_i hoff
          cases h
          have := hp _ _ _ hr
          simp only [Option.getD_some, List.length_drop, List.length_cons] at ih ⊢
          omega
        · simp at h
      · simp at h
      · simp at h

theorem read_lawful {α : Type} {r : Reader α} (hs : SafeReader r) (hp : Progress r) :
    Lawful (readContainer r) := by
  refine ⟨fun it => ?_, fun it l h => ?_⟩
  · obtain ⟨bytes⟩ := it
    cases bytes with
    | none => exact ⟨[], .done (s' := ⟨none⟩) rfl⟩
    | some bytes =>
      obtain ⟨l, hl, _⟩ := yields_exists hs hp bytes
      exact ⟨l, holds_read.2 hl⟩
  · have := yields_length hp (holds_read.1 h)
    simp only [readContainer]; omega

theorem holds_rates {it : RatesReadIterator} {l : List EncodedRate} :
    Holds ratesContainer it l ↔ RatesYields it l := by
  constructor
  · intro h
    induction h with
    | done h => exact .done h
    | more h _ ih => exact .more h ih
  · intro h
    induction h with
    | done h => exact .done h
    | more h _ ih => exact .more h ih

theorem rates_lawful : Lawful ratesContainer := by
  have h : ∀ it : RatesReadIterator, RatesYields it ((it.bytes.bytes.getD []).map EncodedRate.mk) := by
    rintro ⟨⟨bytes⟩⟩
    cases bytes with
    | none => exact .done (it' := ⟨⟨none⟩⟩) rfl
    | some bytes =>
      have := ratesYields_new (bytes.map EncodedRate.mk)
      simp only [List.map_map, show EncodedRate.bits ∘ EncodedRate.mk = id from rfl, List.map_id] at this
      exact this
  exact ⟨fun it => ⟨_, holds_rates.2 (h it)⟩, fun it l hl => by
    rw [(holds_rates.1 hl).unique (h it), List.length_map]
    exact Nat.lt_succ_self _⟩

/-! ## RSN elements -/

theorem compareListOption_holds {α C D : Type} [DecidableEq α] {c : Container C α} {d : Container D α}
    (hc : Lawful c) {x : Option C} {y : Option D} {l m : Option (List α)} (hx : HoldsOpt c x l)
    (hy : HoldsOpt d y m) : compareListOption (c.eq d) x y = .ok (decide (l = m)) := by
  cases x <;> cases l <;> cases y <;> cases m <;> simp only [HoldsOpt] at hx hy <;>
    simp only [compareListOption]
  · simp
  · simp
  · simp
  · rw [Container.eq_holds hc hx hy]; simp

theorem andThen_ok (a : Bool) (b : Res Bool) (c : Bool) (h : b = .ok c) :
    andThen (.ok a) b = .ok (a && c) := by
  subst h
  cases a <;> rfl

section
variable {P A M P' A' M' P'' A'' M'' : Type}
  {cp : Container P IEEE80211CipherSuiteSelector} {ca : Container A IEEE80211AkmType}
  {cm : Container M (Arr 16)} {cp' : Container P' IEEE80211CipherSuiteSelector}
  {ca' : Container A' IEEE80211AkmType} {cm' : Container M' (Arr 16)}
  {cp'' : Container P'' IEEE80211CipherSuiteSelector}
  {ca'' : Container A'' IEEE80211AkmType} {cm'' : Container M'' (Arr 16)}

theorem RsnElement.eq_holds (hp : Lawful cp) (ha : Lawful ca) (hm : Lawful cm) {e : RsnElement P A M}
    {e' : RsnElement P' A' M'} {v v' : RsnElement.OfLists} (h : RsnHolds cp ca cm e v)
    (h' : RsnHolds cp' ca' cm' e' v') :
    RsnElement.eq cp ca cm cp' ca' cm' e e' = .ok (decide (v = v')) := by
  unfold RsnElement.eq
  rw [compareListOption_holds hp h.pairwise h'.pairwise, compareListOption_holds ha h.akm h'.akm,
    compareListOption_holds hm h.pmkid h'.pmkid, h.group, h'.group, h.capabilities, h'.capabilities,
    h.management, h'.management]
  rw [andThen_ok _ _ _ (andThen_ok _ _ _ (andThen_ok _ _ _ (andThen_ok _ _ _ (andThen_ok _ _ _ rfl))))]
  congr 1
  obtain ⟨g, p, a, c, m, k⟩ := v
  obtain ⟨g', p', a', c', m', k'⟩ := v'
  rw [Bool.eq_iff_iff]
  simp

theorem Spec.RsnHolds.unique {e : RsnElement P A M} {v v' : RsnElement.OfLists}
    (h : RsnHolds cp ca cm e v) (h' : RsnHolds cp ca cm e v') : v = v' := by
  have aux : ∀ {C α : Type} {c : Container C α} {x : Option C} {l m : Option (List α)},
      HoldsOpt c x l → HoldsOpt c x m → l = m := by
    intro C α c x l m h1 h2
    cases x <;> cases l <;> cases m <;> simp only [HoldsOpt] at h1 h2
    · rfl
    · rw [h1.unique h2]
  obtain ⟨h1, h2, h3, h4, h5, h6⟩ := h
  obtain ⟨k1, k2, k3, k4, k5, k6⟩ := h'
  obtain ⟨g, p, a, c, m, k⟩ := v
  obtain ⟨g', p', a', c', m', k'⟩ := v'
  simp only at h1 h2 h3 h4 h5 h6 k1 k2 k3 k4 k5 k6
  rw [← h1, ← h4, ← h6, ← k1, ← k4, ← k6, aux h2 k2, aux h3 k3, aux h5 k5]

theorem rsnHolds_exists (hp : Lawful cp) (ha : Lawful ca) (hm : Lawful cm) (e : RsnElement P A M) :
    ∃ v, RsnHolds cp ca cm e v := by
  have aux : ∀ {C α : Type} {c : Container C α}, Lawful c → ∀ x, ∃ l, HoldsOpt c x l := by
    intro C α c hc x
    cases x with
    | none => exact ⟨none, trivial⟩
    | some x => obtain ⟨l, hl⟩ := hc.items x; exact ⟨some l, hl⟩
  obtain ⟨p, h1⟩ := aux hp e.pairwise_cipher_suite_list
  obtain ⟨a, h2⟩ := aux ha e.akm_list
  obtain ⟨m, h3⟩ := aux hm e.pmkid_list
  exact ⟨⟨_, p, a, _, m, _⟩, rfl, h1, h2, rfl, h3, rfl⟩

/-- Two RSN elements compare equal exactly if their fields are equal and their lists have the same items in
the same order, whatever the lists are kept in; the comparison always ends with an answer. -/
theorem c55_rsn (hp : Lawful cp) (ha : Lawful ca) (hm : Lawful cm) (hp' : Lawful cp') (ha' : Lawful ca')
    (hm' : Lawful cm') (e : RsnElement P A M) (e' : RsnElement P' A' M') :
    (RsnElement.eq cp ca cm cp' ca' cm' e e' = .ok true ∨
      RsnElement.eq cp ca cm cp' ca' cm' e e' = .ok false) ∧
    (RsnElement.eq cp ca cm cp' ca' cm' e e' = .ok true ↔
      ∃ v, RsnHolds cp ca cm e v ∧ RsnHolds cp' ca' cm' e' v) := by
  obtain ⟨v, h⟩ := rsnHolds_exists hp ha hm e
  obtain ⟨v', h'⟩ := rsnHolds_exists hp' ha' hm' e'
  rw [RsnElement.eq_holds hp ha hm h h']
  constructor
  · by_cases hv : v = v' <;> simp [hv]
  · simp only [Res.ok.injEq, decide_eq_true_eq]
    constructor
    · rintro rfl; exact ⟨_, h, h'⟩
    · rintro ⟨w, hw, hw'⟩; rw [h.unique hw, h'.unique hw']

/-- The comparison is an equivalence, also across containers. -/
theorem c55_rsn_equivalence (hp : Lawful cp) (ha : Lawful ca) (hm : Lawful cm) (hp' : Lawful cp')
    (ha' : Lawful ca') (hm' : Lawful cm') (hp'' : Lawful cp'') (ha'' : Lawful ca'') (hm'' : Lawful cm'')
    (e : RsnElement P A M) (e' : RsnElement P' A' M') (e'' : RsnElement P'' A'' M'') :
    RsnElement.eq cp ca cm cp ca cm e e = .ok true ∧
    RsnElement.eq cp ca cm cp' ca' cm' e e' = RsnElement.eq cp' ca' cm' cp ca cm e' e ∧
    (RsnElement.eq cp ca cm cp' ca' cm' e e' = .ok true →
      RsnElement.eq cp' ca' cm' cp'' ca'' cm'' e' e'' = .ok true →
      RsnElement.eq cp ca cm cp'' ca'' cm'' e e'' = .ok true) := by
  obtain ⟨v, h⟩ := rsnHolds_exists hp ha hm e
  obtain ⟨v', h'⟩ := rsnHolds_exists hp' ha' hm' e'
  obtain ⟨v'', h''⟩ := rsnHolds_exists hp'' ha'' hm'' e''
  rw [RsnElement.eq_holds hp ha hm h h, RsnElement.eq_holds hp ha hm h h',
    RsnElement.eq_holds hp' ha' hm' h' h, RsnElement.eq_holds hp' ha' hm' h' h'',
    RsnElement.eq_holds hp ha hm h h'']
  refine ⟨by simp, ?_, ?_⟩
  · congr 1; rw [Bool.eq_iff_iff]; simp only [decide_eq_true_eq]; exact eq_comm
  · simp only [Res.ok.injEq, decide_eq_true_eq]
    exact Eq.trans

end

section
variable [ScrollRule]

omit [ScrollRule] in
private theorem fixed_lawful {α : Type} {r : Reader α} {n : Nat} (h : FixedReader r n) (hn : 0 < n) :
    Lawful (readContainer r) := by
  have key : ∀ inp, (∃ a, r inp = .ok (a, n) ∧ n ≤ inp.length) ∨ ∃ e, r inp = .err e := by
    intro inp
    by_cases hi : n ≤ inp.length
    · obtain ⟨a, ha⟩ := (h inp).1 hi
      exact .inl ⟨a, ha, hi⟩
    · exact .inr ((h inp).2 (by omega))
  apply read_lawful
  · intro inp
    rcases key inp with ⟨a, ha, hi⟩ | ⟨e, he⟩
    · rw [ha]; exact hi
    · rw [he]; trivial
  · intro inp a k hr
    rcases key inp with ⟨a, ha, hi⟩ | ⟨e, he⟩
    · rw [ha] at hr; cases hr; exact hn
    · rw [he] at hr; cases hr

/-- The containers of a parsed element and arrays can be iterated to their end. -/
theorem c55_containers : Lawful (readContainer readCipherSuite) ∧ Lawful (readContainer readAkm) ∧
    Lawful (readContainer readPmkid) ∧
    (∀ α : Type, Lawful (listContainer : Container (List α) α)) ∧ Lawful ratesContainer :=
  ⟨fixed_lawful readCipherSuite_fixed (by decide), fixed_lawful readAkm_fixed (by decide),
   fixed_lawful (readArr_fixed 16) (by decide), fun _ => list_lawful, rates_lawful⟩

theorem rsnHolds_parsed (q : RsnElement.Parsed) (e : RsnElement.OfLists) :
    RsnHolds (readContainer readCipherSuite) (readContainer readAkm) (readContainer readPmkid) q e ↔
      RsnSame q e := by
  have aux : ∀ {α : Type} (r : Reader α) x l, HoldsOpt (readContainer r) x l ↔ SameList r x l := by
    intro α r x l
    cases x <;> cases l <;> simp only [HoldsOpt, SameList]
    exact holds_read
  constructor
  · rintro ⟨h1, h2, h3, h4, h5, h6⟩
    exact ⟨h1, (aux _ _ _).1 h2, (aux _ _ _).1 h3, h4, (aux _ _ _).1 h5, h6⟩
  · rintro ⟨h1, h2, h3, h4, h5, h6⟩
    exact ⟨h1, (aux _ _ _).2 h2, (aux _ _ _).2 h3, h4, (aux _ _ _).2 h5, h6⟩

omit [ScrollRule] in
theorem rsnHolds_lists (e v : RsnElement.OfLists) :
    RsnHolds listContainer listContainer listContainer e v ↔ v = e := by
  have aux : ∀ {α : Type} (x l : Option (List α)), HoldsOpt listContainer x l ↔ l = x := by
    intro α x l
    cases x <;> cases l <;> simp [HoldsOpt, holds_list]
  obtain ⟨g, p, a, c, m, k⟩ := e
  obtain ⟨g', p', a', c', m', k'⟩ := v
  constructor
  · rintro ⟨h1, h2, h3, h4, h5, h6⟩
    rw [aux] at h2 h3 h5
    simp only at h1 h2 h3 h4 h5 h6
    subst h1 h2 h3 h4 h5 h6
    rfl
  · intro h
    cases h
    exact ⟨rfl, (aux _ _).2 rfl, (aux _ _).2 rfl, rfl, (aux _ _).2 rfl, rfl⟩

omit [ScrollRule] in
/-- Elements over arrays compare equal exactly if they are. -/
theorem c55_rsn_lists (e e' : RsnElement.OfLists) :
    RsnElement.eq listContainer listContainer listContainer listContainer listContainer listContainer e e' =
      .ok (decide (e = e')) :=
  RsnElement.eq_holds list_lawful list_lawful list_lawful ((rsnHolds_lists _ _).2 rfl)
    ((rsnHolds_lists _ _).2 rfl)

/-- A parsed element compares equal to one over arrays exactly if it has the same fields and items. -/
theorem c55_rsn_parsed (q : RsnElement.Parsed) (e : RsnElement.OfLists) :
    (RsnElement.parsedEqLists q e = .ok true ↔ RsnSame q e) ∧
    (RsnElement.parsedEqLists q e = .ok false ↔ ¬ RsnSame q e) := by
  obtain ⟨h1, h2, h3, h4, -⟩ := c55_containers
  have h := c55_rsn h1 h2 h3 (h4 _) (h4 _) (h4 _) q e
  have hk : (∃ v, RsnHolds (readContainer readCipherSuite) (readContainer readAkm)
      (readContainer readPmkid) q v ∧ RsnHolds listContainer listContainer listContainer e v) ↔
      RsnSame q e := by
    simp only [rsnHolds_parsed, rsnHolds_lists]
    exact ⟨fun ⟨v, hv, he⟩ => he ▸ hv, fun hs => ⟨e, hs, rfl⟩⟩
  rw [hk] at h
  refine ⟨h.2, ?_⟩
  rcases h.1 with h0 | h0
  · simp only [RsnElement.parsedEqLists, h0, true_iff] at h ⊢
    simp [h.2]
  · have h2 := h.2
    simp only [RsnElement.parsedEqLists, h0, true_iff] at h2 ⊢
    simpa using h2

/-- Two parsed elements compare equal exactly if they have the same fields and items. -/
theorem c55_rsn_parsed_parsed (q q' : RsnElement.Parsed) :
    RsnElement.parsedEqParsed q q' = .ok true ↔ ∃ e, RsnSame q e ∧ RsnSame q' e := by
  obtain ⟨h1, h2, h3, -⟩ := c55_containers
  have h := (c55_rsn h1 h2 h3 h1 h2 h3 q q').2
  simp only [rsnHolds_parsed] at h
  exact h

/-- An element that is written and parsed compares equal to the original. -/
theorem c55_rsn_round_trip (e : RsnElement.OfLists) (hwf : RsnWf e) (hs : RsnSmall e)
    (hc : RsnCanonical e) (he : RsnEndOk e) (buf : Bytes) (hb : (rsnWire 4 e).length ≤ buf.length) :
    ∃ out n q, writeRsnLists e buf = .ok (out, n) ∧ readRsn (out.take n) = .ok (q, n) ∧
      RsnElement.parsedEqLists q e = .ok true := by
  obtain ⟨out, n, q, h1, h2, h3⟩ := c17_round_trip e hwf hs hc he buf hb
  exact ⟨out, n, q, h1, h2, (c55_rsn_parsed q e).1.2 h3⟩

omit [ScrollRule] in
/-- Violation: two parsed elements compare equal and are nevertheless different, and are written as
different bytes: those at the end of the PMKID list that do not make up a PMKID are compared by nothing.
The derived `Hash` does read them, so that equal elements have different hashes. -/
theorem c55_rsn_equal_different (s : Bool) : letI : ScrollRule := ⟨s⟩
    ∃ q q' out out' n, readRsn ([1, 0] ++ toLE IEEE80211CipherSuiteSelector.Ccmp128.cipherSuiteSelector ++
        [0, 0, 0, 0, 0, 0, 1, 0, 7, 7, 7, 7]) = .ok (q, 18) ∧
      readRsn ([1, 0] ++ toLE IEEE80211CipherSuiteSelector.Ccmp128.cipherSuiteSelector ++
        [0, 0, 0, 0, 0, 0, 1, 0, 8, 8, 8, 8]) = .ok (q', 18) ∧
      RsnElement.parsedEqParsed q q' = .ok true ∧ q ≠ q' ∧
      writeRsnParsed q (List.replicate 18 0) = .ok (out, n) ∧
      writeRsnParsed q' (List.replicate 18 0) = .ok (out', n) ∧ out ≠ out' := by
  refine ⟨⟨some .Ccmp128, some (.new []), some (.new []), some ⟨0⟩, some (.new [7, 7, 7, 7]), none⟩,
    ⟨some .Ccmp128, some (.new []), some (.new []), some ⟨0⟩, some (.new [8, 8, 8, 8]), none⟩,
    [1, 0, 0, 0x0f, 0xac, 4, 0, 0, 0, 0, 0, 0, 1, 0, 7, 7, 7, 7],
    [1, 0, 0, 0x0f, 0xac, 4, 0, 0, 0, 0, 0, 0, 1, 0, 8, 8, 8, 8], 18, ?_⟩
  cases s <;> decide +kernel

/-! ## Rates -/

omit [ScrollRule] in
/-- Rates read from a frame compare equal to a list exactly if they are its items. -/
theorem c55_rates (it : RatesReadIterator) (l : List EncodedRate) :
    (ratesEq ratesContainer listContainer it l = .ok true ↔ RatesYields it l) ∧
    (ratesEq ratesContainer listContainer it l = .ok false ↔ ¬ RatesYields it l) ∧
    ratesEq listContainer ratesContainer l it = ratesEq ratesContainer listContainer it l := by
  obtain ⟨m, hm⟩ := rates_lawful.items it
  have hl := (holds_list l l).2 rfl
  have hk : RatesYields it l ↔ m = l :=
    ⟨fun h => hm.unique (holds_rates.2 h), fun h => h ▸ holds_rates.1 hm⟩
  unfold ratesEq
  rw [Container.eq_holds rates_lawful hm hl, Container.eq_holds list_lawful hl hm, hk]
  refine ⟨by simp, by simp, ?_⟩
  congr 1; rw [Bool.eq_iff_iff]; simp only [decide_eq_true_eq]; exact eq_comm

omit [ScrollRule] in
/-- Rates that are written and parsed compare equal to the original. -/
theorem c55_rates_round_trip (l : List EncodedRate) :
    (∀ e, newSupportedRates l = some e →
      ∃ it, readSupportedRates (l.map EncodedRate.bits) = .ok (it, l.length) ∧
        ratesEq ratesContainer listContainer it e.supported_rates = .ok true) ∧
    (∀ e, newExtendedSupportedRates l = some e →
      ∃ it, readExtendedSupportedRates (l.map EncodedRate.bits) = .ok (it, l.length) ∧
        ratesEq ratesContainer listContainer it e.supported_rates = .ok true) := by
  constructor
  · intro e h
    obtain ⟨it, h1, h2⟩ := c11_round_trip_supported l e h
    obtain ⟨-, rfl⟩ := (c11_new_supported l e).1 h
    exact ⟨it, h1, (c55_rates it l).1.2 ((h2 l).2 rfl)⟩
  · intro e h
    obtain ⟨it, h1, h2⟩ := c11_round_trip_extended l e h
    obtain ⟨-, rfl⟩ := (c11_new_extended l e).1 h
    exact ⟨it, h1, (c55_rates it l).1.2 ((h2 l).2 rfl)⟩

omit [ScrollRule] in
/-- Rates read from two frames compare equal exactly if the bytes are the same. -/
theorem c55_rates_bytes (a b : Bytes) :
    ratesEq ratesContainer ratesContainer (.new a) (.new b) = .ok (decide (a = b)) := by
  have h : ∀ a : Bytes, Holds ratesContainer (.new a) (a.map EncodedRate.mk) := by
    intro a
    have := ratesYields_new (a.map EncodedRate.mk)
    simp only [List.map_map, show EncodedRate.bits ∘ EncodedRate.mk = id from rfl, List.map_id] at this
    exact holds_rates.2 this
  unfold ratesEq
  rw [Container.eq_holds rates_lawful (h a) (h b)]
  congr 1
  rw [Bool.eq_iff_iff]
  simp only [decide_eq_true_eq]
  refine ⟨fun h => ?_, fun h => h ▸ rfl⟩
  have := congrArg (List.map EncodedRate.bits) h
  simpa only [List.map_map, show EncodedRate.bits ∘ EncodedRate.mk = id from rfl, List.map_id] using this

/-! ## TIM elements -/

/-- The bytes of the map of a TIM, if it has one that can be accessed. -/
def Spec.TimMap (e : TIMElement) (map : Option (TIMBitmapControl × Option Bytes)) : Prop :=
  match e.bitmap, map with
  | none, none => True
  | some b, some (c, none) => b.bitmap_control = c ∧ b.partial_virtual_bitmap = none
  | some b, some (c, some bytes) =>
    b.bitmap_control = c ∧ ∃ bits, b.partial_virtual_bitmap = some bits ∧ bits.asBytes = .ok bytes
  | _, _ => False

omit [ScrollRule] in
/-- Two TIM elements whose maps can be accessed compare equal exactly if the parameters, the control bytes and
the bytes of the maps are the same, whichever kind of map they have. -/
theorem c55_tim (e e' : TIMElement) (m m' : Option (TIMBitmapControl × Option Bytes)) (h : TimMap e m)
    (h' : TimMap e' m') :
    e.eq e' = .ok (decide (e.dtim_count = e'.dtim_count ∧ e.dtim_period = e'.dtim_period ∧ m = m')) := by
  obtain ⟨c, p, b⟩ := e
  obtain ⟨c', p', b'⟩ := e'
  have key : (match b, b' with
      | some lhs, some rhs => lhs.eq rhs
      | none, none => Res.ok true
      | _, _ => .ok false) = .ok (decide (m = m')) := by
    cases b with
    | none =>
      cases m with
      | some m => simp [TimMap] at h
      | none =>
        cases b' with
        | none =>
          cases m' with
          | some m' => simp [TimMap] at h'
          | none => rfl
        | some b' =>
          cases m' with
          | none => simp [TimMap] at h'
          | some m' => rfl
    | some b =>
      cases m with
      | none => simp [TimMap] at h
      | some m =>
        cases b' with
        | none =>
          cases m' with
          | some m' => simp [TimMap] at h'
          | none => rfl
        | some b' =>
          cases m' with
          | none => simp [TimMap] at h'
          | some m' =>
            have aux : ∀ (b : TIMBitmap) (m : TIMBitmapControl × Option Bytes),
                TimMap ⟨c, p, some b⟩ (some m) →
                b.bitmap_control = m.1 ∧ asDeref b.partial_virtual_bitmap = .ok m.2 := by
              intro b m h
              obtain ⟨ctl, bytes⟩ := m
              cases bytes with
              | none => exact ⟨h.1, by rw [h.2]; rfl⟩
              | some bytes =>
                obtain ⟨h1, bits, h2, h3⟩ := h
                exact ⟨h1, by rw [h2]; simp only [asDeref, h3, Res.map]⟩
            obtain ⟨h1, h2⟩ := aux b m h
            obtain ⟨h3, h4⟩ := aux b' m' h'
            simp only [TIMBitmap.eq, h1, h2, h3, h4, Res.ok_bind, Res.pure_eq]
            rw [andThen_ok _ _ _ rfl]
            congr 1
            obtain ⟨m1, m2⟩ := m
            obtain ⟨m1', m2'⟩ := m'
            rw [Bool.eq_iff_iff]
            simp
  unfold TIMElement.eq
  refine (andThen_ok _ _ _ (andThen_ok _ _ _ key)).trans ?_
  congr 1
  rw [Bool.eq_iff_iff]
  simp

omit [ScrollRule] in
private theorem andThen_true {a : Bool} {b : Res Bool} (h : andThen (.ok a) b = .ok true) :
    a = true ∧ b = .ok true := by
  cases a
  · cases h
  · exact ⟨rfl, h⟩

omit [ScrollRule] in
/-- Only elements whose maps can be accessed compare equal. -/
theorem c55_tim_true (e e' : TIMElement) : e.eq e' = .ok true ↔
    e.dtim_count = e'.dtim_count ∧ e.dtim_period = e'.dtim_period ∧ ∃ m, TimMap e m ∧ TimMap e' m := by
  constructor
  · intro ht
    obtain ⟨h1, ht⟩ := andThen_true ht
    obtain ⟨h2, h⟩ := andThen_true ht
    refine ⟨by simpa using h1, by simpa using h2, ?_⟩
    clear ht h1 h2
    obtain ⟨c, p, b⟩ := e
    obtain ⟨c', p', b'⟩ := e'
    cases b <;> cases b'
    · exact ⟨none, trivial, trivial⟩
    · cases h
    · cases h
    · rename_i b b'
      obtain ⟨h3, h⟩ := andThen_true h
      obtain ⟨ctl, x⟩ := b
      obtain ⟨ctl', x'⟩ := b'
      have h3 : ctl = ctl' := by simpa using h3
      subst h3
      have aux : ∀ x : Option TIMBits, ∀ y, asDeref x = .ok y →
          TimMap ⟨c, p, some ⟨ctl, x⟩⟩ (some (ctl, y)) := by
        intro x y hx
        cases x with
        | none => cases hx; exact ⟨rfl, rfl⟩
        | some bits =>
          simp only [asDeref, Res.map] at hx
          split at hx <;> cases hx
          rename_i hb
          exact ⟨rfl, bits, rfl, hb⟩
      dsimp only at h
      cases hx : asDeref x with
      | err _ => rw [hx] at h; cases h
      | panic => rw [hx] at h; cases h
      | ok y =>
        cases hx' : asDeref x' with
        | err _ => rw [hx, hx'] at h; cases h
        | panic => rw [hx, hx'] at h; cases h
        | ok y' =>
          rw [hx, hx'] at h
          have : y = y' := by simpa using h
          subst this
          exact ⟨some (ctl, y), aux x y hx, aux x' y hx'⟩
  · rintro ⟨h1, h2, m, h3, h4⟩
    rw [c55_tim e e' m m h3 h4]
    simp [h1, h2]

/-- TIM elements that compare equal are written as the same bytes. -/
theorem c55_tim_equal_written (e e' : TIMElement) (h : e.eq e' = .ok true)
    (hv : ¬ e.dtim_period < e.dtim_count) :
    ∃ bs n n', Emits (writeTIM e) bs n ∧ Emits (writeTIM e') bs n' := by
  obtain ⟨h1, h2, m, h3, h4⟩ := (c55_tim_true e e').1 h
  have aux : ∀ e : TIMElement, TimMap e m → ∀ b bits, e.bitmap = some b →
      b.partial_virtual_bitmap = some bits → bits.asBytes = .ok ((m.bind Prod.snd).getD []) := by
    intro e hm b bits hb hp
    unfold TimMap at hm
    rw [hb] at hm
    rcases m with _ | ⟨c, _ | bytes⟩
    · exact hm.elim
    · rw [hm.2] at hp; cases hp
    · obtain ⟨-, bits', h1, h2⟩ := hm
      rw [h1] at hp; cases hp
      exact h2
  obtain ⟨n, -, -, hw⟩ := (c16_write e _ (aux e h3)).2 hv
  obtain ⟨n', -, -, hw'⟩ := (c16_write e' _ (aux e' h4)).2 (by rw [← h1, ← h2]; exact hv)
  refine ⟨_, n, n', hw, hw'.cast ?_ rfl⟩
  unfold TimMap at h3 h4
  unfold timBytes
  rw [h1, h2]
  congr 1
  cases hb : e.bitmap with
  | none =>
    cases hb' : e'.bitmap with
    | none => rfl
    | some b' =>
      rw [hb] at h3; rw [hb'] at h4
      rcases m with _ | ⟨c, _ | bytes⟩
      · exact h4.elim
      · exact False.elim h3
      · exact False.elim h3
  | some b =>
    cases hb' : e'.bitmap with
    | none =>
      rw [hb] at h3; rw [hb'] at h4
      rcases m with _ | ⟨c, _ | bytes⟩
      · exact h3.elim
      · exact False.elim h4
      · exact False.elim h4
    | some b' =>
      rw [hb] at h3; rw [hb'] at h4
      rcases m with _ | ⟨c, _ | bytes⟩
      · exact h3.elim
      · simp only [h3.2, h4.2, TIMBitmap.trafficIndicator, h3.1, h4.1]
      · obtain ⟨h5, b1, h6, -⟩ := h3
        obtain ⟨h7, b2, h8, -⟩ := h4
        simp only [h5, h6, h7, h8]

/-- Concrete case: maps of two kinds with the same bytes. -/
example : let e : TIMElement := ⟨0, 1, some ⟨⟨0⟩, some (.const [9, 4, 2, 9] 1 2)⟩⟩
    let e' : TIMElement := ⟨0, 1, some ⟨⟨0⟩, some (.slice [4, 2])⟩⟩
    e.eq e' = .ok true ∧ ¬ e.dtim_period < e.dtim_count := by decide

omit [ScrollRule] in
/-- A map that cannot be accessed makes the comparison panic. -/
theorem c55_tim_panics :
    let e : TIMElement := ⟨0, 1, some ⟨⟨0⟩, some (.const [1, 2] 2 0)⟩⟩
    e.eq e = .panic := by decide


/-- A TIM element with a map, written and parsed, compares equal to the original. -/
theorem c55_tim_round_trip (e : TIMElement) (b : TIMBitmap) (bits : TIMBits) (map : Bytes)
    (h : ¬ e.dtim_period < e.dtim_count) (hb : e.bitmap = some b)
    (hp : b.partial_virtual_bitmap = some bits) (hm : bits.asBytes = .ok map) :
    ∃ e', readTIM (timBytes e map) = .ok (e', (timBytes e map).length) ∧ e'.eq e = .ok true := by
  obtain ⟨b', h1, h2, h3, -⟩ := c16_round_trip e b bits map h hb hp hm
  refine ⟨_, h1, ?_⟩
  rw [c55_tim _ _ (some (b.bitmap_control, some map)) (some (b.bitmap_control, some map))]
  · simp
  · exact ⟨h2, _, h3, rfl⟩
  · simp only [TimMap, hb]; exact ⟨trivial, bits, hp, hm⟩

omit [ScrollRule] in
/-- Violation: elements that compare equal report different sizes. -/
theorem c55_tim_measure_wrong :
    let e : TIMElement := ⟨0, 1, some ⟨⟨0⟩, some (.static (4 :: List.replicate 250 0) 0)⟩⟩
    let e' : TIMElement := ⟨0, 1, some ⟨⟨0⟩, some (.slice [4])⟩⟩
    e.eq e' = .ok true ∧ measureTIM e = .ok 3 ∧ measureTIM e' = .ok 4 := by decide +kernel

end

end Verif
