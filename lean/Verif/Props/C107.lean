import Verif.Props.C50
import Verif.Props.C101
/-!
# C107: a key that both sides remember is used again

PMKSA caching (12.6.8.3 and 12.6.10.3): a station that was at an access point before lists, in the RSN element of its
association request, the identifiers of the keys it remembers (9.4.2.24.5).  The access point looks for the first key of its
own with one of these identifiers; if there is one, the two need not authenticate again.  The access point is not in the crate;
it is written here with the functions of the crate.
-/
namespace Verif

namespace Spec

/-- 12.7.1.3: the identifier of a key. -/
def keyName (h : Bytes → Bytes → Bytes) (aa spa : Mac) (pmk : Bytes) : Bytes :=
  (h pmk (ascii "PMK Name" ++ (aa.val ++ spa.val))).take 16

/-- The first remembered key that is listed. -/
def remembered (h : Bytes → Bytes → Bytes) (aa spa : Mac) (cache : List Bytes) (ids : List (Arr 16)) : Option Bytes :=
  cache.find? fun pmk => ids.any fun id => id.val == keyName h aa spa pmk

/-- What is in an association request beside the RSN element, with the elements as which the others are written. -/
structure Rejoin where
  header : ManagementFrameHeader
  capabilities : CapabilitiesInformation
  listen : BitVec 16
  before : List (ChainItem × RawElement)
  after : List (ChainItem × RawElement)

/-- No other RSN element; and HT control as in the frame control field (C21). -/
structure Rejoin.Fine [ScrollRule] (a : Rejoin) : Prop where
  ht : HtConsistent a.header
  items : ∀ p ∈ a.before ++ a.after, (∃ x, ItemOf p.1 p.2 x) ∧ p.2.tlv_type ≠ 48
  last : ∀ p, a.after.getLast? = some p → slack ≤ p.2.slice.length

/-! ## The access point, with the functions of the crate -/

/-- The first key of which the identifier, as the crate computes it, is in a list. -/
def recall (h : Bytes → Bytes → Bytes) (aa spa : Mac) (ids : List (Arr 16)) : List Bytes → Res (Option Bytes)
  | [] => .ok none
  | pmk :: l => do
    let id ← generatePmkid h pmk aa spa
    if ids.contains id then pure (some pmk) else recall h aa spa ids l

variable [ScrollRule] [Crc32]

omit [Crc32] in
/-- The identifiers in the RSN element. -/
def listedIds (els : Bytes) : Res (List (Arr 16)) := do
  match ← getFirstElement els rsnKind with
  | none => pure []
  | some e => match e.pmkid_list with
    | none => pure []
    | some it => it.collect readPmkid (els.length + 1)

/-- An association request is heard: who asks, and the key that is used again. -/
def welcome (h : Bytes → Bytes → Bytes) (aa : Mac) (cache : List Bytes) (fcs : Bool) (frame : Bytes) :
    Res (Option (Mac × Option Bytes)) :=
  match matchFrames frame (if fcs then some true else none)
    [armOf MgmtKind.AssociationRequest.frame (readMgmtFrame readAssociationRequest)
      fun r => (r.1.transmitter_address, r.2.elements)] with
  | .panic => .panic
  | .err _ => .ok none
  | .ok (_, spa, els) => do
    let ids ← listedIds els
    let pmk ← recall h aa spa ids cache
    pure (some (spa, pmk))

/-- The association request of the station, with a given item as RSN element. -/
def rejoin (a : Rejoin) (i : ChainItem) (fcs : Bool) (buf : Bytes) : Res Bytes := do
  let (out, n) ← writeMgmtFrame .AssociationRequest a.header (writeAssociationRequest
    ⟨a.capabilities, a.listen, (chainAround (a.before.map Prod.fst) (a.after.map Prod.fst) i).obj⟩) fcs buf
  pure (out.take n)

end Spec

open Spec

/-! ## Keys and identifiers -/

private theorem recall_eq (h : Bytes → Bytes → Bytes) (hl : ∀ k m, 16 ≤ (h k m).length) (aa spa : Mac) (ids : List (Arr 16))
    (cache : List Bytes) : recall h aa spa ids cache = .ok (remembered h aa spa cache ids) := by
  induction cache with
  | nil => rfl
  | cons pmk l ih =>
    obtain ⟨id, h1, h2⟩ := c50_pmkid h pmk aa spa (hl _ _)
    have hc : ids.contains id = ids.any fun x => x.val == keyName h aa spa pmk := by
      rw [keyName, ← h2]
      clear h1 h2 ih
      induction ids with
      | nil => rfl
      | cons x l ih =>
        rw [List.contains_cons, List.any_cons, ih]
        congr 1
        rw [Bool.eq_iff_iff, beq_iff_eq, beq_iff_eq]
        exact ⟨fun h => by rw [h], fun h => (Subtype.ext h).symm⟩
    rw [recall, h1, Res.ok_bind, ih, hc]
    simp only [remembered, List.find?_cons]
    cases ids.any fun x => x.val == keyName h aa spa pmk <;> rfl

variable [ScrollRule]

private theorem listed_of {bytes : Bytes} {raws : List RawElement} (he : ElementsOf bytes raws) (body : Bytes)
    (pre post : List RawElement) (hr : raws = pre ++ ⟨48, body⟩ :: post) (hpre : ∀ r ∈ pre, r.tlv_type ≠ 48)
    (q : RsnElement.Parsed) (n : Nat) (hq : readRsn body = .ok (q, n)) (hb : slack ≤ body.length) (ids : List (Arr 16))
    (hi : q.pmkid_list = none ∧ ids = [] ∨ SameList readPmkid q.pmkid_list (some ids)) (hk : ids.length ≤ bytes.length) :
    listedIds bytes = .ok ids := by
  have h1 : getFirstElement bytes rsnKind = .ok (some q) := by
    refine (c07_first_some he rsnKind (by simp [rsnKind]) readRsn_safe.ne_panic q).2 ⟨pre, post, body, hr, ?_, ?_⟩
    · simp only [parsed, rsnKind, hq]
      rw [if_neg (by omega)]
    · intro p hp
      exact absurd rfl (hpre _ hp)
  simp only [listedIds, h1, Res.ok_bind]
  rcases hi with ⟨h2, rfl⟩ | h2
  · rw [h2]; rfl
  · revert h2
    cases q.pmkid_list with
    | none => exact fun h => h.elim
    | some it => exact fun h => collect_of_yields h _ (by omega)

theorem mem_long {bytes : Bytes} {raws : List RawElement} (h : ElementsOf bytes raws) :
    ∀ r ∈ raws, r.slice.length ≤ bytes.length := by
  induction h with
  | stop _ => simp
  | elem e hl _ _ ih =>
    intro r hr
    have := tlv_length e
    rcases List.mem_cons.1 hr with rfl | hr
    · simp; omega
    · have := ih r hr
      simp; omega

omit [ScrollRule] in
/-- The identifiers that are read are octets of the list. -/
private theorem yields_some : ∀ (n : Nat) (b : Bytes), b.length ≤ n →
    ∃ l : List (Arr 16), Yields readPmkid (.new b) l ∧ l.length ≤ b.length ∧ ∀ x ∈ l, x.val <:+: b := by
  intro n
  induction n with
  | zero =>
    intro b hb
    obtain ⟨e, he⟩ : ∃ e, readPmkid b = .err e := by
      simp only [readPmkid, readArr]; rw [dif_neg (by omega)]; exact ⟨_, rfl⟩
    exact ⟨[], .done (it' := ⟨none⟩) (by simp [ReadIterator.next, ReadIterator.new, he]), by simp, by simp⟩
  | succ n ih =>
    intro b hb
    by_cases h16 : 16 ≤ b.length
    · obtain ⟨l, h1, h2, h3⟩ := ih (b.drop 16) (by simp; omega)
      have hr := readArr_append (⟨b.take 16, by simp; omega⟩ : Arr 16) (b.drop 16)
      simp only [List.take_append_drop] at hr
      refine ⟨⟨b.take 16, by simp; omega⟩ :: l, .more (it' := .new (b.drop 16)) ?_ h1, ?_, ?_⟩
      · simp only [ReadIterator.next, ReadIterator.new, readPmkid, hr]
        rw [if_pos (by omega)]
      · simp at h2 ⊢; omega
      · intro x hx
        rcases List.mem_cons.1 hx with rfl | hx
        · exact (List.take_prefix 16 b).isInfix
        · exact (h3 x hx).trans (List.drop_suffix 16 b).isInfix
    · obtain ⟨e, he⟩ : ∃ e, readPmkid b = .err e := by
        simp only [readPmkid, readArr]; rw [dif_neg (by omega)]; exact ⟨_, rfl⟩
      exact ⟨[], .done (it' := ⟨none⟩) (by simp [ReadIterator.next, ReadIterator.new, he]), by simp, by simp⟩

theorem read_version {body : Bytes} {q : RsnElement.Parsed} {n : Nat} (h : RdAt readRsnBody body q n) :
    readRsn ([1, 0] ++ body) = .ok (q, 2 + n) := by
  have e : ([1, 0] : Bytes) = toLE (1 : BitVec 16) := by decide
  rw [e]
  have : RdAt (do
      let v ← Rd.gread (readLE 16)
      if v ≠ 1 then Rd.fail .badInput else readRsnBody) (toLE (1 : BitVec 16) ++ body) q (2 + n) := by
    apply RdAt.le (w := 16) (m := n) (h := by decide) (hp := by decide)
    rw [if_neg (by decide)]
    exact h
  exact this.run

private theorem part_of (inp : Bytes) : ∃ q n, RdAt readRsnBody inp q n ∧
    ∀ it, q.pmkid_list = some it → ∃ b, it = .new b ∧ b <:+: inp := by
  rcases greadCipher_any inp with h1 | ⟨g, r1, rfl⟩
  · exact ⟨_, 0, RdAt.bind_pure h1 rfl, by simp [RsnElement.empty]⟩
  have s1 := greadCipher_some g r1
  rcases readRsnList_any r1 with ⟨k, hk, h2⟩ | ⟨n2, b2, r2, rfl, l2, e2⟩
  · exact ⟨_, _, RdAt.bind s1 (RdAt.bind_pure h2 rfl), by simp⟩
  have s2 := readRsnList_some n2 b2 r2 l2 e2
  rcases readRsnList_any r2 with ⟨k, hk, h3⟩ | ⟨n3, b3, r3, rfl, l3, e3⟩
  · exact ⟨_, _, RdAt.bind s1 (RdAt.bind s2 (RdAt.bind_pure h3 rfl)), by simp⟩
  have s3 := readRsnList_some n3 b3 r3 l3 e3
  rcases greadU16_any r3 with h4 | ⟨c, r4, rfl⟩
  · exact ⟨_, _, RdAt.bind s1 (RdAt.bind s2 (RdAt.bind s3 (RdAt.bind_pure h4 rfl))), by simp⟩
  have s4 := greadU16_some c r4
  rcases readRsnList_any r4 with ⟨k, hk, h5⟩ | ⟨n5, b5, r5, rfl, l5, e5⟩
  · exact ⟨_, _, RdAt.bind s1 (RdAt.bind s2 (RdAt.bind s3 (RdAt.bind s4 (RdAt.bind_pure h5 rfl)))), by simp⟩
  have s5 := readRsnList_some n5 b5 r5 l5 e5
  have hin : b5 <:+: toLE g ++ ((toLE n2 ++ b2) ++ ((toLE n3 ++ b3) ++ (toLE c ++ ((toLE n5 ++ b5) ++ r5)))) :=
    ⟨toLE g ++ toLE n2 ++ b2 ++ toLE n3 ++ b3 ++ toLE c ++ toLE n5, r5, by simp⟩
  rcases greadCipher_any r5 with h6 | ⟨m, r6, rfl⟩
  · refine ⟨_, _, RdAt.bind s1 (RdAt.bind s2 (RdAt.bind s3 (RdAt.bind s4 (RdAt.bind s5 (RdAt.bind_pure h6 rfl))))), ?_⟩
    intro it hit
    simp only [Option.some.injEq] at hit
    exact ⟨b5, hit.symm, hin⟩
  · refine ⟨_, _, RdAt.bind s1 (RdAt.bind s2 (RdAt.bind s3 (RdAt.bind s4 (RdAt.bind s5
      (RdAt.bind_pure (greadCipher_some m r6) rfl))))), ?_⟩
    intro it hit
    simp only [Option.some.injEq] at hit
    exact ⟨b5, hit.symm, hin⟩

private theorem list_part (inp : Bytes) (q : RsnElement.Parsed) (n : Nat) (h : readRsn inp = .ok (q, n))
    (it : ReadIterator) (hit : q.pmkid_list = some it) : ∃ b, it = .new b ∧ b <:+: inp := by
  by_cases hv : ∀ rest, inp ≠ [1, 0] ++ rest
  · obtain ⟨e, he⟩ := c17_version inp hv
    rw [he] at h; cases h
  · obtain ⟨rest, hv⟩ := Classical.not_forall.1 hv
    obtain rfl := Classical.not_not.1 hv
    obtain ⟨q', n', h1, h2⟩ := part_of rest
    rw [read_version h1] at h
    simp only [Res.ok.injEq, Prod.mk.injEq] at h
    obtain ⟨rfl, -⟩ := h
    obtain ⟨b, h3, h4⟩ := h2 it hit
    exact ⟨b, h3, h4.trans (List.suffix_append _ _).isInfix⟩

/-- There always is a list, and what is in it is in an RSN element. -/
private theorem listed_total {els : Bytes} {raws : List RawElement} (h : ElementsOf els raws) :
    ∃ ids, listedIds els = .ok ids ∧ ∀ id ∈ ids, ∃ r ∈ raws, r.tlv_type = 48 ∧ id.val <:+: r.slice := by
  obtain ⟨o, ho⟩ := (c08_lookup_safe els rsnKind (by simp [rsnKind]) fun q => readRsn_safe.ne_panic q).2.1
  simp only [listedIds, ho, Res.ok_bind]
  cases o with
  | none => exact ⟨[], rfl, by simp⟩
  | some q =>
    obtain ⟨pre, post, p, hr, hp, -⟩ := (c07_first_some h rsnKind (by simp [rsnKind]) readRsn_safe.ne_panic q).1 ho
    cases hm : q.pmkid_list with
    | none => exact ⟨[], by simp only [hm]; rfl, by simp⟩
    | some it =>
      have hrd : ∃ n, readRsn p = .ok (q, n) := by
        simp only [parsed, rsnKind] at hp
        split at hp
        · cases hp
        · split at hp
          · rename_i a k hk
            simp only [Option.some.injEq] at hp
            subst hp
            exact ⟨_, hk⟩
          · cases hp
      obtain ⟨n, hn⟩ := hrd
      obtain ⟨b, rfl, hb⟩ := list_part p q n hn it hm
      obtain ⟨l, h1, h2, h3⟩ := yields_some _ b (Nat.le_refl _)
      have hmem : (⟨48, p⟩ : RawElement) ∈ raws := by rw [hr]; exact List.mem_append_right _ List.mem_cons_self
      have hlen := mem_long h _ hmem
      have := hb.length_le
      simp only at hlen
      exact ⟨l, by simp only [hm]; exact collect_of_yields h1 _ (by omega), fun id hid => ⟨_, hmem, rfl, (h3 id hid).trans hb⟩⟩

theorem arrives_last (a : Rejoin) (ha : a.Fine) (r : RawElement) (hr : slack ≤ r.slice.length) :
    ∀ q, (a.before.map Prod.snd ++ r :: a.after.map Prod.snd).getLast? = some q → slack ≤ q.slice.length := by
  intro q hq
  rw [List.getLast?_append, List.getLast?_cons] at hq
  cases hg : (a.after.map Prod.snd).getLast? with
  | none =>
    rw [hg] at hq
    simp at hq
    subst hq
    exact hr
  | some r' =>
    rw [hg] at hq
    simp at hq
    subst hq
    rw [List.getLast?_map] at hg
    obtain ⟨p, hp, rfl⟩ := Option.map_eq_some_iff.1 hg
    exact ha.last p hp

variable [Crc32]

/-- A request with an RSN element that is read as a list of identifiers: the access point has the key that is to be used. -/
private theorem rejoin_core (h : Bytes → Bytes → Bytes) (hl : ∀ k m, 16 ≤ (h k m).length) (aa : Mac) (cache : List Bytes)
    (a : Rejoin) (ha : a.Fine) (i : ChainItem) (body : Bytes) (x : Nat) (hi : ItemOf i ⟨48, body⟩ x)
    (q : RsnElement.Parsed) (n : Nat) (hq : readRsn body = .ok (q, n)) (hb : slack ≤ body.length) (ids : List (Arr 16))
    (hs : q.pmkid_list = none ∧ ids = [] ∨ SameList readPmkid q.pmkid_list (some ids)) (hk : ids.length ≤ body.length)
    (fcs : Bool) :
    ∃ size, ∀ buf : Bytes, size ≤ buf.length → ∃ frame, rejoin a i fcs buf = .ok frame ∧
      welcome h aa cache fcs frame =
        .ok (some (a.header.transmitter_address, remembered h aa a.header.transmitter_address cache ids)) := by
  obtain ⟨y, hch⟩ := chainAround_of a.before a.after (fun p hp => (ha.items p hp).1) i _ x hi
  obtain ⟨size, hA⟩ := c65_bodies_partial.1 a.header ha.ht
    ⟨a.capabilities, a.listen, (chainAround (a.before.map Prod.fst) (a.after.map Prod.fst) i).obj⟩ _ _ y rfl hch
    (arrives_last a ha _ hb) trivial fcs (Mac × Bytes) (fun r => (r.1.transmitter_address, r.2.elements)) [] [] (by simp)
  refine ⟨size, fun buf hbuf => ?_⟩
  obtain ⟨out, m, els, h1, h2, h3⟩ := hA buf hbuf
  refine ⟨out.take m, ?_, ?_⟩
  · simp only [rejoin]
    erw [h1]
    rfl
  · have hid : listedIds els = .ok ids := by
      refine listed_of h3 body _ _ rfl ?_ q n hq hb ids hs ?_
      · intro r hr
        obtain ⟨p, hp, rfl⟩ := List.mem_map.1 hr
        exact (ha.items p (by simp [hp])).2
      · have := mem_long h3 ⟨48, body⟩ (by simp)
        simp only at this
        omega
    simp only [welcome]
    simp only [List.nil_append] at h2
    erw [h2]
    simp only [hid, Res.ok_bind, recall_eq h hl]
    rfl

/-! ## The property -/

/-- A station that lists no key, with the typed element of the crate: no key is used again.  Partial: as C17 the element is
as the crate can read it, and HT control as in the frame control field. -/
theorem c107_none_partial (h : Bytes → Bytes → Bytes) (hl : ∀ k m, 16 ≤ (h k m).length) (aa : Mac) (cache : List Bytes)
    (a : Rejoin) (ha : a.Fine) (e : RsnElement.OfLists) (hw : RsnWf e) (hs : RsnSmall e) (hc : RsnCanonical e)
    (he : RsnEndOk e) (hn : ∀ l, e.pmkid_list = some l → l = []) (hfit : (rsnWire 1 e).length ≤ 255) (fcs : Bool) :
    ∃ size, ∀ buf : Bytes, size ≤ buf.length → ∃ frame, rejoin a (.typed (rsnElem e)) fcs buf = .ok frame ∧
      welcome h aa cache fcs frame = .ok (some (a.header.transmitter_address, none)) := by
  have hsl := slack_le
  have h4 := c17_standard_partial e hn
  obtain ⟨q, hq, hsame⟩ := c17_read e hw hs hc he [] (.inl rfl)
  rw [List.append_nil] at hq
  have hlen : 2 ≤ (rsnWire 4 e).length := by simp [rsnWire]
  have hi := ItemOf.typed (rsnElem e) (rsnWire 4 e) _ (c17_write e hw hs he) (by omega) (c17_measure_partial e 4 hn)
    (by simp only [rsnElem, rawOf]; rw [h4]; exact hfit)
  have hids : q.pmkid_list = none ∧ ([] : List (Arr 16)) = [] ∨ SameList readPmkid q.pmkid_list (some []) := by
    have h5 := hsame.2.2.2.2.1
    cases hm : e.pmkid_list with
    | none =>
      rw [hm] at h5
      revert h5
      cases q.pmkid_list with
      | none => exact fun _ => .inl ⟨rfl, rfl⟩
      | some _ => exact fun h => h.elim
    | some l =>
      rw [hm, hn l hm] at h5
      exact .inr h5
  obtain ⟨size, hA⟩ := rejoin_core h hl aa cache a ha _ _ _ hi q _ hq (by omega) [] hids (by simp) fcs
  have hnone : remembered h aa a.header.transmitter_address cache [] = none := by simp [remembered]
  rw [hnone] at hA
  exact ⟨size, hA⟩

/-- Two users of the crate: if the station writes the element into a buffer and puts this into a raw element, the access
point uses the key that it should.  Partial: as C17 and C21, and with the element in a form (`rsnWire 4`) that the standard
does not have if there are identifiers. -/
theorem c107_own_partial (h : Bytes → Bytes → Bytes) (hl : ∀ k m, 16 ≤ (h k m).length) (aa : Mac) (cache : List Bytes)
    (a : Rejoin) (ha : a.Fine) (e : RsnElement.OfLists) (hw : RsnWf e) (hs : RsnSmall e) (hc : RsnCanonical e)
    (he : RsnEndOk e) (ids : List (Arr 16)) (hid : e.pmkid_list = some ids) (hfit : (rsnWire 4 e).length ≤ 255)
    (tmp : Bytes) (ht : (rsnWire 4 e).length ≤ tmp.length) (fcs : Bool) :
    ∃ written n, writeRsnLists e tmp = .ok (written, n) ∧
    ∃ size, ∀ buf : Bytes, size ≤ buf.length → ∃ frame, rejoin a (.raw ⟨48, written.take n⟩) fcs buf = .ok frame ∧
      welcome h aa cache fcs frame =
        .ok (some (a.header.transmitter_address, remembered h aa a.header.transmitter_address cache ids)) := by
  have hsl := slack_le
  obtain ⟨q, hq, hsame⟩ := c17_read e hw hs hc he [] (.inl rfl)
  rw [List.append_nil] at hq
  have hlen : 2 + ids.length ≤ (rsnWire 4 e).length := by
    have h1 := c17_measure_pmkid e 4 ids hid
    have h2 : 2 ≤ measureRsnLists e := by simp [measureRsnLists, RsnElement.measure]; omega
    omega
  refine ⟨_, _, (c17_write e hw hs he).ok tmp ht, ?_⟩
  rw [List.take_left]
  have h5 := hsame.2.2.2.2.1
  rw [hid] at h5
  exact rejoin_core h hl aa cache a ha _ (rsnWire 4 e) _ (.raw ⟨48, rsnWire 4 e⟩ hfit) q _ hq (by omega) ids (.inr h5) (by omega) fcs

private theorem standard_core (h : Bytes → Bytes → Bytes) (hl : ∀ k m, 16 ≤ (h k m).length) (aa : Mac) (cache : List Bytes)
    (a : Rejoin) (ha : a.Fine) (g : IEEE80211CipherSuiteSelector) (p : List IEEE80211CipherSuiteSelector)
    (k : List IEEE80211AkmType) (c : RsnCapabilities) (ids : List (Arr 16)) (gm : Option IEEE80211CipherSuiteSelector)
    (hg : g.Canonical) (hp : ∀ c ∈ p, c.Canonical) (hk : ∀ c ∈ k, c.Canonical) (hne : ids ≠ [])
    (hfit : (rsnWire 1 ⟨some g, some p, some k, some c, some ids, gm⟩).length ≤ 255) (fcs : Bool) :
    ∃ size, ∀ buf : Bytes, size ≤ buf.length → ∃ frame,
      rejoin a (.raw ⟨48, rsnWire 1 ⟨some g, some p, some k, some c, some ids, gm⟩⟩) fcs buf = .ok frame ∧
      welcome h aa cache fcs frame = .ok (some (a.header.transmitter_address,
        remembered h aa a.header.transmitter_address cache (ids.take (ids.length / 4)))) := by
  have hsl := slack_le
  have h1 := c17_measure_pmkid ⟨some g, some p, some k, some c, some ids, gm⟩ 1 ids rfl
  have h2 : 2 + 4 * p.length + 4 * k.length + 4 * ids.length ≤
      measureRsnLists ⟨some g, some p, some k, some c, some ids, gm⟩ := by
    simp [measureRsnLists, RsnElement.measure]; omega
  obtain ⟨q, gm', hq, hsame, -⟩ := c17_pmkid_shifted g p k c ids gm hne (by omega) (by omega) (by omega) hg hp hk
  generalize rsnWire 1 ⟨some g, some p, some k, some c, some ids, gm⟩ = body at *
  exact rejoin_core h hl aa cache a ha _ body _ (.raw ⟨48, body⟩ hfit) q _ hq (by omega) _ (.inr hsame.2.2.2.2.1)
    (by rw [List.length_take]; omega) fcs

/-- Violation: to a station that writes the element as the standard says, the access point answers as if only the first
quarter of the keys were listed. -/
theorem c107_standard_wrong (h : Bytes → Bytes → Bytes) (hl : ∀ k m, 16 ≤ (h k m).length) (aa : Mac) (cache : List Bytes)
    (a : Rejoin) (ha : a.Fine) (g : IEEE80211CipherSuiteSelector) (p : List IEEE80211CipherSuiteSelector)
    (k : List IEEE80211AkmType) (c : RsnCapabilities) (ids : List (Arr 16)) (gm : Option IEEE80211CipherSuiteSelector)
    (hg : g.Canonical) (hp : ∀ c ∈ p, c.Canonical) (hk : ∀ c ∈ k, c.Canonical) (hne : ids ≠ [])
    (hfit : (rsnWire 1 ⟨some g, some p, some k, some c, some ids, gm⟩).length ≤ 255) (fcs : Bool) :
    ∃ size, ∀ buf : Bytes, size ≤ buf.length → ∃ frame,
      rejoin a (.raw ⟨48, rsnWire 1 ⟨some g, some p, some k, some c, some ids, gm⟩⟩) fcs buf = .ok frame ∧
      welcome h aa cache fcs frame = .ok (some (a.header.transmitter_address,
        remembered h aa a.header.transmitter_address cache (ids.take (ids.length / 4)))) :=
  standard_core h hl aa cache a ha g p k c ids gm hg hp hk hne hfit fcs

/-- Violation: a station that lists one, two or three keys, which is what stations do, never has one used again, although
the access point remembers them. -/
theorem c107_few_lost (h : Bytes → Bytes → Bytes) (hl : ∀ k m, 16 ≤ (h k m).length) (aa : Mac) (cache : List Bytes)
    (a : Rejoin) (ha : a.Fine) (g : IEEE80211CipherSuiteSelector) (p : List IEEE80211CipherSuiteSelector)
    (k : List IEEE80211AkmType) (c : RsnCapabilities) (ids : List (Arr 16)) (gm : Option IEEE80211CipherSuiteSelector)
    (hg : g.Canonical) (hp : ∀ c ∈ p, c.Canonical) (hk : ∀ c ∈ k, c.Canonical) (pmk : Bytes) (hm : pmk ∈ cache)
    (hi : ∃ id ∈ ids, id.val = keyName h aa a.header.transmitter_address pmk) (hfew : ids.length < 4)
    (hfit : (rsnWire 1 ⟨some g, some p, some k, some c, some ids, gm⟩).length ≤ 255) (fcs : Bool) :
    (∃ pmk', remembered h aa a.header.transmitter_address cache ids = some pmk') ∧
    ∃ size, ∀ buf : Bytes, size ≤ buf.length → ∃ frame,
      rejoin a (.raw ⟨48, rsnWire 1 ⟨some g, some p, some k, some c, some ids, gm⟩⟩) fcs buf = .ok frame ∧
      welcome h aa cache fcs frame = .ok (some (a.header.transmitter_address, none)) := by
  obtain ⟨id, hid, hv⟩ := hi
  constructor
  · apply Option.isSome_iff_exists.1
    rw [remembered, List.find?_isSome]
    exact ⟨pmk, hm, List.any_eq_true.2 ⟨id, hid, by simp [hv]⟩⟩
  · have hA := standard_core h hl aa cache a ha g p k c ids gm hg hp hk (List.ne_nil_of_mem hid) hfit fcs
    have h0 : ids.length / 4 = 0 := by omega
    have hnone : remembered h aa a.header.transmitter_address cache [] = none := by simp [remembered]
    rw [h0, List.take_zero, hnone] at hA
    exact hA

omit [ScrollRule] [Crc32] in
private theorem suites_length {α : Type} (enc : α → BitVec 32) (l : List α) :
    (countedList 1 (fun c => toLE (enc c)) (some l)).length = 2 + 4 * l.length := by
  have hlen : (l.flatMap fun c => toLE (enc c)).length = l.length * 4 := by
    induction l with
    | nil => rfl
    | cons a l ih => simp only [List.flatMap_cons, List.length_append, toLE_length, ih, List.length_cons]; omega
  rw [countedList, List.length_append, hlen, toLE_length]
  omega

omit [Crc32] in
private theorem read_suites {α : Type} (enc : α → BitVec 32) (l : List α) (rest : Bytes) (hl : l.length < 65536)
    (hr : slack ≤ rest.length) :
    RdAt readRsnList (countedList 1 (fun c => toLE (enc c)) (some l) ++ rest)
      (some (.new (l.flatMap fun c => toLE (enc c)))) (countedList 1 (fun c => toLE (enc c)) (some l)).length := by
  have hlen : (l.flatMap fun c => toLE (enc c)).length = l.length * 4 := by
    clear hl
    induction l with
    | nil => rfl
    | cons a l ih => simp only [List.flatMap_cons, List.length_append, toLE_length, ih, List.length_cons]; omega
  rw [countedList, Nat.one_mul]
  refine readRsnList_some _ _ _ ?_ (by simp; omega)
  rw [hlen, BitVec.toNat_ofNat, Nat.mod_eq_of_lt hl]

omit [Crc32] in
/-- A list that is cut off is no list. -/
private theorem cut_list (cnt : BitVec 16) (part : Bytes) (h : part.length < cnt.toNat * 4) :
    ∃ k, RdAt readRsnList (toLE cnt ++ part) none k := by
  rcases readRsnList_any (toLE cnt ++ part) with ⟨k, -, hk⟩ | ⟨cnt', bs, rest, he, hb, -⟩
  · exact ⟨k, hk⟩
  · exfalso
    rw [List.append_assoc] at he
    have h1 := List.append_inj he (by simp)
    have h2 : cnt = cnt' := toLE_inj rfl h1.1
    subst h2
    have := congrArg List.length h1.2
    simp at this
    omega

omit [Crc32] in
/-- Violation: with the typed element of the crate no listed key is used again, whatever comes after the element: its length
is twelve too small for each key, so that the list is cut off. -/
theorem c107_typed_lost (g : IEEE80211CipherSuiteSelector) (p : List IEEE80211CipherSuiteSelector)
    (k : List IEEE80211AkmType) (c : RsnCapabilities) (ids : List (Arr 16)) (gm : Option IEEE80211CipherSuiteSelector)
    (hne : ids ≠ []) (hfit : (rsnWire 1 ⟨some g, some p, some k, some c, some ids, gm⟩).length ≤ 255) :
    ∃ bytes n, Emits (rsnElem ⟨some g, some p, some k, some c, some ids, gm⟩).writeWrapped bytes n ∧
      ∀ rest, listedIds (bytes ++ rest) = .ok [] := by
  have hsl := slack_le
  have hpos : 0 < ids.length := List.length_pos_iff.2 hne
  have hm := c17_measure_pmkid ⟨some g, some p, some k, some c, some ids, gm⟩ 4 ids rfl
  have hm1 := c17_measure_pmkid ⟨some g, some p, some k, some c, some ids, gm⟩ 1 ids rfl
  have h2 : measureRsnLists ⟨some g, some p, some k, some c, some ids, gm⟩ = 14 + 4 * p.length + 4 * k.length +
      4 * ids.length + (if gm.isSome then 4 else 0) := by
    cases gm <;> simp [measureRsnLists, RsnElement.measure] <;> omega
  have hw := c17_write ⟨some g, some p, some k, some c, some ids, gm⟩ (by cases gm <;> simp [RsnWf])
    ⟨by simp; omega, by simp; omega, by simp; omega⟩ ⟨by simp, by simp, by simp; omega⟩
  generalize hmeas : measureRsnLists ⟨some g, some p, some k, some c, some ids, gm⟩ = m at *
  have hwire : rsnWire 4 ⟨some g, some p, some k, some c, some ids, gm⟩ = [1, 0] ++ (toLE g.cipherSuiteSelector ++
      (countedList 1 (fun c => toLE c.cipherSuiteSelector) (some p) ++
      (countedList 1 (fun c => toLE c.cipherSuiteSelector) (some k) ++ (toLE c.bits ++
      (toLE (BitVec.ofNat 16 (4 * ids.length)) ++ (ids.flatMap (fun p => p.val) ++
        optField (fun c => toLE c.cipherSuiteSelector) gm)))))) := by
    simp [rsnWire, countedList, optField]
  have hall : (ids.flatMap fun p => p.val).length = ids.length * 16 := by
    clear hwire hw hfit hm hm1 h2 hpos hne hmeas
    induction ids with
    | nil => rfl
    | cons a l ih => simp only [List.flatMap_cons, List.length_append, ih, List.length_cons, a.property]; omega
  have hopt : (optField (fun c : IEEE80211CipherSuiteSelector => toLE c.cipherSuiteSelector) gm).length =
      if gm.isSome then 4 else 0 := by
    cases gm <;> simp [optField]
  have hcp : (countedList 1 (fun c : IEEE80211CipherSuiteSelector => toLE c.cipherSuiteSelector) (some p)).length =
      2 + 4 * p.length := suites_length _ p
  have hck : (countedList 1 (fun c : IEEE80211AkmType => toLE c.cipherSuiteSelector) (some k)).length =
      2 + 4 * k.length := suites_length _ k
  generalize hopt4 : (if gm.isSome then 4 else 0) = o at *
  have ho : o ≤ 4 := by rw [← hopt4]; split <;> omega
  generalize htail : (ids.flatMap fun p => p.val) ++ optField (fun c => toLE c.cipherSuiteSelector) gm = tail at *
  have htl : tail.length = ids.length * 16 + o := by rw [← htail, List.length_append, hall, hopt]
  obtain ⟨part, more, rfl, hpart⟩ : ∃ part more, tail = part ++ more ∧ part.length = 4 * ids.length + o :=
    ⟨tail.take (4 * ids.length + o), tail.drop (4 * ids.length + o), by simp, by simp; omega⟩
  obtain ⟨j, hcut⟩ := cut_list (BitVec.ofNat 16 (4 * ids.length)) part
    (by rw [BitVec.toNat_ofNat, Nat.mod_eq_of_lt (by omega)]; omega)
  have hread := read_version (RdAt.bind (greadCipher_some g.cipherSuiteSelector _)
    (RdAt.bind (read_suites (fun c : IEEE80211CipherSuiteSelector => c.cipherSuiteSelector) p _ (by omega) ?_)
    (RdAt.bind (read_suites (fun c : IEEE80211AkmType => c.cipherSuiteSelector) k _ (by omega) ?_)
    (RdAt.bind (greadU16_some c.bits _) (RdAt.bind_pure hcut rfl)))))
  · generalize hbody : [1, 0] ++ (toLE g.cipherSuiteSelector ++
      (countedList 1 (fun c : IEEE80211CipherSuiteSelector => toLE c.cipherSuiteSelector) (some p) ++
      (countedList 1 (fun c : IEEE80211AkmType => toLE c.cipherSuiteSelector) (some k) ++ (toLE c.bits ++
      (toLE (BitVec.ofNat 16 (4 * ids.length)) ++ part))))) = body at hread
    have hbl : body.length = m := by
      rw [← hbody]
      simp only [List.length_append, hcp, hck, hpart, toLE_length, List.length_cons, List.length_nil]
      omega
    have hbytes : (48 : Byte) :: BitVec.ofNat 8 m :: rsnWire 4 ⟨some g, some p, some k, some c, some ids, gm⟩ =
        tlv ⟨48, body⟩ ++ more := by
      rw [hwire, tlv, hbl, ← hbody]
      simp
    have hwr := (writeTLV_emits_any 48 ⟨writeRsnLists ⟨some g, some p, some k, some c, some ids, gm⟩, m⟩ _ _ hw
      (by show m ≤ 255; omega)).pwrite0
    rw [hbytes] at hwr
    have hwe : (rsnElem ⟨some g, some p, some k, some c, some ids, gm⟩).writeWrapped =
        pwrite (writeTLV 48 ⟨writeRsnLists ⟨some g, some p, some k, some c, some ids, gm⟩, m⟩) 0 := by
      simp only [Elem.writeWrapped, rsnElem, hmeas]
    rw [← hwe] at hwr
    refine ⟨tlv ⟨48, body⟩ ++ more, _, hwr, fun rest => ?_⟩
    · obtain ⟨raws, hraws⟩ := elementsOf_exists (more ++ rest)
      rw [List.append_assoc]
      have hel := ElementsOf.elem ⟨48, body⟩ (by show body.length ≤ 255; omega)
        (not_noElement (by show body.length ≤ 255; omega) (by show slack ≤ body.length + _; omega)) hraws
      exact listed_of hel body [] raws rfl (by simp) _ _ hread (by omega) [] (.inl ⟨rfl, rfl⟩) (by simp)
  · simp; omega
  · simp; omega

/-! ## Anything on the air -/

/-- The access point panics on frames with less than four bytes where a check sequence is expected, and on no others. -/
theorem c107_panics_iff (h : Bytes → Bytes → Bytes) (hl : ∀ k m, 16 ≤ (h k m).length) (aa : Mac) (cache : List Bytes)
    (fcs : Bool) (frame : Bytes) :
    welcome h aa cache fcs frame = .panic ↔ fcs = true ∧ frame.length < 4 := by
  have hm := (match_mgmt readAssociationRequest readAssociationRequest_safe
    (fun r => (r.1.transmitter_address, r.2.elements)) [.AssociationRequest] (by decide) fcs frame).1
  simp only [List.map_cons, List.map_nil] at hm
  rw [← hm, welcome]
  split
  · rename_i h1; simp [h1]
  · rename_i h1; simp [h1]
  · rename_i j spa els h1
    obtain ⟨raws, hraws⟩ := elementsOf_exists els
    obtain ⟨ids, hi, -⟩ := listed_total hraws
    simp only [h1, hi, Res.ok_bind, recall_eq h hl, pure]
    simp

/-- Whatever is received: a key that is used again is one that the access point remembers, and its identifier is in an RSN
element of an association request, of which the second address is that of the station. -/
theorem c107_heard_only (h : Bytes → Bytes → Bytes) (hl : ∀ k m, 16 ≤ (h k m).length) (aa : Mac) (cache : List Bytes)
    (fcs : Bool) (frame : Bytes) (spa : Mac) (pmk : Bytes) (hw : welcome h aa cache fcs frame = .ok (some (spa, some pmk))) :
    pmk ∈ cache ∧ ∃ (hd : ManagementFrameHeader) (b0 : Byte) (fixed els : Bytes) (raws : List RawElement),
      frame = withFcs fcs (b0 :: hd.fcf_flags.bits :: (mgmtHeaderWire hd ++ (fixed ++ els))) ∧
      b0.toNat / 4 % 4 = 0 ∧ b0.toNat / 16 = 0 ∧ hd.transmitter_address = spa ∧ fixed.length = 4 ∧
      ElementsOf els raws ∧ ∃ r ∈ raws, r.tlv_type = 48 ∧ keyName h aa spa pmk <:+: r.slice := by
  have hm := (match_mgmt readAssociationRequest readAssociationRequest_safe
    (fun r => (r.1.transmitter_address, r.2.elements)) [.AssociationRequest] (by decide) fcs frame).2.2
  simp only [List.map_cons, List.map_nil] at hm
  unfold welcome at hw
  split at hw
  · cases hw
  · cases hw
  · rename_i j spa' els hr
    obtain ⟨inner, hin, k, hk, hkind, ⟨hd, body⟩, n, hread, hx⟩ := hm _ _ hr
    simp only [Prod.mk.injEq] at hx
    obtain ⟨rfl, rfl⟩ := hx
    have hbr : Bounded readAssociationRequest := by
      intro inp b k h
      obtain ⟨_, _, _, _, h, _⟩ := c22_association_request.parse inp b k h
      omega
    obtain ⟨b0, rest, m, h1, h2, h3, h4, -⟩ := c23_parse _ hbr false inner hd body n hread
    obtain ⟨fx, h5, h6, -⟩ := c22_association_request.parse _ _ _ h4
    obtain ⟨raws, hraws⟩ := elementsOf_exists body.elements
    obtain ⟨ids, hi, hids⟩ := listed_total hraws
    simp only [hi, recall_eq h hl, Res.ok_bind, pure, Res.ok.injEq, Option.some.injEq, Prod.mk.injEq] at hw
    obtain ⟨rfl, hw⟩ := hw
    have h7 := List.mem_of_find?_eq_some hw
    have h8 := List.find?_some hw
    obtain ⟨id, h9, h10⟩ := List.any_eq_true.1 h8
    rw [beq_iff_eq] at h10
    obtain ⟨r, h11, h12, h13⟩ := hids id h9
    refine ⟨h7, hd, b0, fx, body.elements, raws, ?_, ?_, ?_, rfl, h6, hraws, r, h11, h12, h10 ▸ h13⟩
    · rw [hin, h1, h5]
      rfl
    all_goals
      obtain ⟨c0, c1, r', hc, hk1, hk2, -⟩ := hkind
      rw [h1] at hc
      simp only [withFcs, Bool.false_eq_true, if_false, List.cons.injEq] at hc
      obtain ⟨rfl, -⟩ := hc
      simp only [List.mem_cons, List.not_mem_nil, or_false] at hk
      subst hk
      first | exact hk1 | exact hk2

/-! ## Examples -/

private def exName (x : Byte) : Arr 16 := ⟨x :: List.replicate 15 0, rfl⟩

private def exHeader : ManagementFrameHeader :=
  ⟨⟨0⟩, 0, ⟨[2, 0, 0, 0, 0, 1], rfl⟩, ⟨[2, 0, 0, 0, 0, 9], rfl⟩, ⟨[2, 0, 0, 0, 0, 1], rfl⟩, ⟨0⟩, none⟩

private def exRejoin : Rejoin := ⟨exHeader, ⟨0⟩, 1, [], []⟩

omit [Crc32] in
private theorem exFine : exRejoin.Fine where
  ht := by unfold HtConsistent; decide
  items := by simp [exRejoin]
  last := by simp [exRejoin]

/-- A hash that puts the key first. -/
private def exHash (k m : Bytes) : Bytes := k ++ (List.replicate 16 0 ++ m)

omit [ScrollRule] [Crc32] in
private theorem exName_of (aa spa : Mac) (x : Byte) : (exName x).val = keyName exHash aa spa [x] := by
  simp [exName, keyName, exHash, List.replicate]

/-- The access point remembers the keys 7 and 8, and the station lists 8: by the standard this is used again, but with the
crate none is. -/
example : remembered exHash exHeader.bssid exHeader.transmitter_address [[7], [8]] [exName 8] = some [8] ∧
    ∃ size, ∀ buf : Bytes, size ≤ buf.length → ∃ frame,
      rejoin exRejoin (.raw ⟨48, rsnWire 1 ⟨some .Ccmp128, some [.Ccmp128], some [.Psk], some .new, some [exName 8], none⟩⟩)
        true buf = .ok frame ∧
      welcome exHash exHeader.bssid [[7], [8]] true frame = .ok (some (exHeader.transmitter_address, none)) := by
  constructor
  · simp only [remembered, List.find?_cons, List.any_cons, List.any_nil,
      ← exName_of exHeader.bssid exHeader.transmitter_address]
    decide
  · exact (c107_few_lost exHash (fun k m => by simp [exHash]; omega) exHeader.bssid [[7], [8]] exRejoin exFine .Ccmp128
      [.Ccmp128] [.Psk] .new [exName 8] none (by simp [IEEE80211CipherSuiteSelector.Canonical])
      (by simp [IEEE80211CipherSuiteSelector.Canonical]) (by simp [IEEE80211AkmType.Canonical]) [8] (by simp)
      ⟨exName 8, by simp, exName_of _ _ 8⟩ (by decide) (by decide) true).2

/-- With the element as the crate reads it, the key is used. -/
example : ∃ written n, writeRsnLists ⟨some .Ccmp128, some [.Ccmp128], some [.Psk], some .new, some [exName 8], none⟩
      (List.replicate 64 0) = .ok (written, n) ∧
    ∃ size, ∀ buf : Bytes, size ≤ buf.length → ∃ frame,
      rejoin exRejoin (.raw ⟨48, written.take n⟩) true buf = .ok frame ∧
      welcome exHash exHeader.bssid [[7], [8]] true frame = .ok (some (exHeader.transmitter_address, some [8])) := by
  have h := c107_own_partial exHash (fun k m => by simp [exHash]; omega) exHeader.bssid [[7], [8]] exRejoin exFine
    ⟨some .Ccmp128, some [.Ccmp128], some [.Psk], some .new, some [exName 8], none⟩ (by simp [RsnWf])
    (by simp [RsnSmall]) (by simp [RsnCanonical, IEEE80211CipherSuiteSelector.Canonical, IEEE80211AkmType.Canonical])
    ⟨by simp, by simp, by have := slack_le; simp; omega⟩ [exName 8] rfl (by decide) (List.replicate 64 0) (by decide) true
  have hr : remembered exHash exHeader.bssid exHeader.transmitter_address [[7], [8]] [exName 8] = some [8] := by
    simp only [remembered, List.find?_cons, List.any_cons, List.any_nil,
      ← exName_of exHeader.bssid exHeader.transmitter_address]
    decide
  have ht : exRejoin.header.transmitter_address = exHeader.transmitter_address := rfl
  rw [ht, hr] at h
  exact h

end Verif
