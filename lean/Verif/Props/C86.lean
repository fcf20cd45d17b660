import Verif.Props.C72
/-!
# C86: the group key handshake

The authenticator sends a new group key as encrypted key data, the supplicant takes it out and acknowledges it.  As
for the four-way handshake (C72) the crate has the functions for the frames, and the order of messages is that of the
standard (12.7.7) and is written down here; so is the rule that the supplicant discards a message whose replay counter
is not larger than the last (12.7.2).  Between the two sides messages may be lost, repeated and reordered.
-/
namespace Verif

namespace Spec

/-- What a first message of the group key handshake has to satisfy: MIC and encrypted key data, the MIC field 16
zeros, and as key data the group key `g`. -/
structure Message.GroupKey [ScrollRule] (m : Message Chain) (g : GtkKde) (buf : Bytes) (temp : Nat) : Prop where
  valid : ValidData m.header
  consistent : HeaderConsistent m.header
  mic : m.frame.key_mic = List.replicate 16 0
  flag : m.frame.key_information.key_mic = true
  encrypted : m.frame.key_information.encrypted_key_data = true
  key : m.frame.key_data = .last (.typed (gtkElem g))
  length : g.gtk.length ≤ 249
  temp : g.gtk.length + 32 ≤ temp
  buffer : m.header.lengthInBytes + g.gtk.length + 139 ≤ buf.length

/-- The answer to a message: the acknowledgement with the replay counter of that message. -/
def Message.answering {κ ι : Type} (m : Message κ) (r : EapolKeyFrame ι) : Message κ :=
  { m with frame := { m.frame with key_replay_counter := r.key_replay_counter } }

/-- The handshake: what the supplicant gets (the message and the group key in it), and what the authenticator gets
back. -/
def groupHandshake [ScrollRule] [Crc32] [HmacSha1] [AesKw] (akm : IEEE80211AkmType) (kckA kekA kckS kekS : Arr 16)
    (buf : Bytes) (temp : Nat) (m1 : Message Chain) (m2 : Message Bytes) :
    Res (EapolKeyFrame Bytes × Option GtkKde × EapolKeyFrame Bytes) := do
  let f1 ← sendFrame (some kckA) (some kekA) m1.ofChain buf temp
  let r1 ← deserializeEapolDataFrame (some kckS) (some kekS) f1 temp akm false
  let g ← getFirstElement r1.key_data gtkKind
  let f2 ← sendFrame (some kckS) (some kekS) (m2.answering r1).ofBytes buf temp
  let r2 ← deserializeEapolDataFrame (some kckA) (some kekA) f2 temp akm false
  pure (r1, g, r2)

/-- A supplicant: the last replay counter, and the group keys installed so far with the counters they came with, the
latest first. -/
structure Supplicant where
  counter : Nat
  installed : List (Nat × GtkKde)
  deriving DecidableEq, Repr

/-- The group key in force for a key ID: the last one installed. -/
def Supplicant.key (s : Supplicant) (id : BitVec 2) : Option GtkKde :=
  (s.installed.find? fun p => p.2.gtk_info.bits.extractLsb' 0 2 == id).map Prod.snd

/-- Receiving some bytes: a frame with a MIC that is accepted, whose counter is larger than the last, and that holds a
group key, is obeyed; everything else is discarded. -/
def Supplicant.receive [ScrollRule] [HmacSha1] [AesKw] (akm : IEEE80211AkmType) (kck kek : Arr 16) (temp : Nat)
    (s : Supplicant) (bytes : Bytes) : Res Supplicant :=
  match deserializeEapolDataFrame (some kck) (some kek) bytes temp akm false with
  | .panic => .panic
  | .err _ => .ok s
  | .ok r =>
    if r.key_information.key_mic = true ∧ s.counter < r.key_replay_counter.toNat then
      match getFirstElement r.key_data gtkKind with
      | .ok (some g) => .ok ⟨r.key_replay_counter.toNat, (r.key_replay_counter.toNat, g) :: s.installed⟩
      | .ok none | .err _ => .ok s
      | .panic => .panic
    else .ok s

/-- Receiving one after another. -/
def Supplicant.receiveAll [ScrollRule] [HmacSha1] [AesKw] (akm : IEEE80211AkmType) (kck kek : Arr 16) (temp : Nat) :
    Supplicant → List Bytes → Res Supplicant
  | s, [] => .ok s
  | s, b :: bs => do
    let s ← s.receive akm kck kek temp b
    s.receiveAll akm kck kek temp bs

/-- From what is delivered, that which has a larger number than all before it (and than `last`). -/
def fresh {α : Type} (last : Nat) : List (Nat × α) → List (Nat × α)
  | [] => []
  | p :: ps => if last < p.1 then p :: fresh p.1 ps else fresh last ps

/-- What is delivered to the supplicant: a frame that the authenticator sent, now or earlier, with a counter and a
group key; or a frame of someone else, which is not accepted or has no MIC. -/
inductive Delivered [ScrollRule] [Crc32] [HmacSha1] [AesKw] (akm : IEEE80211AkmType) (kck kek : Arr 16) (buf : Bytes)
    (temp : Nat) : Bytes → Option (Nat × GtkKde) → Prop
  | sent {m : Message Chain} {g : GtkKde} {bytes : Bytes} (hm : m.GroupKey g buf temp)
      (hs : sendFrame (some kck) (some kek) m.ofChain buf temp = .ok bytes) :
      Delivered akm kck kek buf temp bytes (some (m.frame.key_replay_counter.toNat, g))
  | forged {bytes : Bytes} (hp : deserializeEapolDataFrame (some kck) (some kek) bytes temp akm false ≠ .panic)
      (hf : ∀ r, deserializeEapolDataFrame (some kck) (some kek) bytes temp akm false = .ok r →
        r.key_information.key_mic = false) : Delivered akm kck kek buf temp bytes none

end Spec

open Spec

variable [ScrollRule] [Crc32] [HmacSha1]

/-- A group key as a key data element. -/
private def gtkRaw (g : GtkKde) : RawElement := ⟨221, [0x00, 0x0f, 0xac, 1] ++ (toLE g.gtk_info.bits ++ g.gtk)⟩

omit [Crc32] [HmacSha1] in
private theorem gtk_found (g : GtkKde) (hg : g.gtk.length ≤ 249) :
    getFirstElement ([gtkRaw g].flatMap tlv) gtkKind = .ok (some g) := by
  have hsl := slack_le
  refine (c20_gtk g hg).2.found _ [] [] (elementsOf_flatMap _ ?_ ?_) (by simp)
  · intro r hr
    cases List.mem_singleton.1 hr
    simp [gtkRaw]; omega
  · intro r hr
    simp only [List.getLast?_singleton, Option.some.injEq] at hr
    subst hr
    simp [gtkRaw]; omega

/-- Sending a group key, and what a receiver with the same keys makes of it. -/
private theorem group_key_sent {m : Message Chain} {g : GtkKde} {buf : Bytes} {temp : Nat} (hm : m.GroupKey g buf temp)
    (kck kek : Arr 16) (akm : IEEE80211AkmType) (ha : akm.keyMicLen = some 16) :
    letI := realKw
    ∃ out mic kd data : Bytes, sendFrame (some kck) (some kek) m.ofChain buf temp = .ok out ∧ mic.length = 16 ∧
      wireKeyData (some kek) true (tlv (gtkRaw g)) = some kd ∧
      mic = (HmacSha1.hmac kck.val (eapolWire 2 m.frame (Arr.zero 8).val kd)).val.take 16 ∧
      out = eapolPrefix m.header m.oui 0x888e ++ eapolWire 2 { m.frame with key_mic := mic } (Arr.zero 8).val kd ∧
      deserializeEapolDataFrame (some kck) (some kek) out temp akm false =
        .ok { m.frame with key_mic := mic, key_data := data } ∧
      getFirstElement data gtkKind = .ok (some g) := by
  letI := realKw
  obtain ⟨hv, hc, h0, hfl, henc, hk, hg, ht, hb⟩ := hm
  have hsl := slack_le
  obtain ⟨x, hx⟩ := gtk_item g hg
  have hch : ChainOf m.frame.key_data [gtkRaw g] x := by
    rw [hk]; exact .last hx
  have hlast : ∀ r, [gtkRaw g].getLast? = some r → slack ≤ r.slice.length := by
    intro r hr
    simp only [List.getLast?_singleton, Option.some.injEq] at hr
    subst hr
    simp [gtkRaw]; omega
  have hlen : ([gtkRaw g].flatMap tlv).length = g.gtk.length + 8 := by
    simp [tlv, gtkRaw]; omega
  obtain ⟨out, mic, kd, hser, hkd, hm, ho, data, hdes, hlook⟩ := c63_protected_partial kck kek akm ha m.header hv hc m.oui
    m.frame h0 henc _ x hch hlast buf temp (by omega) (by omega) (by omega)
  have h16 : m.frame.key_mic.length = 16 := by rw [h0]; simp
  simp only [wireMic, hfl, h16, if_true, Option.map_some, Option.some.injEq] at hm
  refine ⟨out, mic, kd, data, ?_, by rw [← hm]; simp, by simpa using hkd, hm.symm, ho, ?_, ?_⟩
  · show (serializeEapolDataFrame _ _ _ _ _ >>= _) = _
    unfold Message.ofChain
    rw [hser]
    simp
  · have := hdes (Arr.zero 4) false
    simpa using this
  · rw [hlook gtkKind ((c63_not_padding _).2 ⟨by simp [gtkKind, kdeId], by simp [gtkKind, kdeId],
      by simp [gtkKind, kdeId]⟩) readGtk_safe.ne_panic]
    exact gtk_found g hg

/-- The handshake between two sides with the same keys: the supplicant gets the message as it was sent and the group
key in it, and the authenticator the acknowledgement as it was sent, with the counter of its own message. -/
theorem c86_handshake_partial (akm : IEEE80211AkmType) (ha : akm.keyMicLen = some 16) (kck kek : Arr 16) (buf : Bytes)
    (temp : Nat) (m1 : Message Chain) (g : GtkKde) (m2 : Message Bytes) (h1 : m1.GroupKey g buf temp)
    (h2 : m2.Plain buf temp) :
    letI := realKw
    ∃ mic1 data mic2, groupHandshake akm kck kek kck kek buf temp m1 m2 =
      .ok ({ m1.frame with key_mic := mic1, key_data := data }, some g,
        { m2.frame with key_mic := mic2, key_replay_counter := m1.frame.key_replay_counter }) := by
  letI := realKw
  haveI := c60_lawful
  obtain ⟨out, mic1, kd, data, hs, _, _, _, _, hd, hl⟩ := group_key_sent h1 kck kek akm ha
  have p2 : (m2.answering { m1.frame with key_mic := mic1, key_data := data }).Plain buf temp :=
    ⟨h2.1, h2.2, h2.3, h2.4, h2.5, h2.6, h2.7, h2.8, h2.9⟩
  obtain ⟨f2, mic2, s2, -, -, -, d2, -⟩ := message_exchange p2 (some kck) (some kek) akm ha (fun _ => rfl)
  refine ⟨mic1, data, mic2, ?_⟩
  unfold groupHandshake
  simp only [hs, hd, hl, s2, d2, Res.ok_bind]
  rfl

/-- Keys that do not agree: if the MIC of the message under the supplicant's KCK is not the one sent, the supplicant
refuses it for its MIC.  (`wireKeyData` is the key data as encrypted by the authenticator.) -/
theorem c86_wrong_key (akm : IEEE80211AkmType) (ha : akm.keyMicLen = some 16) (kckA kekA kckS kekS : Arr 16) (buf : Bytes)
    (temp : Nat) (m1 : Message Chain) (g : GtkKde) (m2 : Message Bytes) (h1 : m1.GroupKey g buf temp)
    (hne : letI := realKw
      ∀ kd, wireKeyData (some kekA) true (tlv ⟨221, [0x00, 0x0f, 0xac, 1] ++ (toLE g.gtk_info.bits ++ g.gtk)⟩) =
        some kd →
      (HmacSha1.hmac kckS.val (eapolWire 2 m1.frame (Arr.zero 8).val kd)).val.take 16 ≠
        (HmacSha1.hmac kckA.val (eapolWire 2 m1.frame (Arr.zero 8).val kd)).val.take 16) :
    letI := realKw
    groupHandshake akm kckA kekA kckS kekS buf temp m1 m2 = .err EapolSerdeError.InvalidMic.code := by
  letI := realKw
  obtain ⟨out, mic1, kd, data, hs, hml, hkd, hmic, ho, _, _⟩ := group_key_sent h1 kckA kekA akm ha
  have hrej := message_refused kckS (some kekS) m1.header h1.valid h1.consistent m1.oui
    { m1.frame with key_data := kd } mic1 kd temp akm ha h1.flag h1.mic hml (by rw [hmic]; exact hne kd hkd)
  unfold groupHandshake
  rw [hs, Res.ok_bind, ho]
  have : deserializeEapolDataFrame (some kckS) (some kekS) (eapolPrefix m1.header m1.oui 0x888e ++
      eapolWire 2 { m1.frame with key_mic := mic1 } (Arr.zero 8).val kd) temp akm false =
      .err EapolSerdeError.InvalidMic.code := hrej
  rw [this]
  rfl

/-- Messages may be lost, repeated, delayed and mixed with forged ones: the supplicant installs exactly the keys of
the authenticator's messages that are newer than all before them, as they were sent and in this order. -/
theorem c86_schedule_partial (akm : IEEE80211AkmType) (ha : akm.keyMicLen = some 16) (kck kek : Arr 16) (buf : Bytes)
    (temp : Nat) (ds : List (Bytes × Option (Nat × GtkKde)))
    (h : letI := realKw; ∀ d ∈ ds, Delivered akm kck kek buf temp d.1 d.2) (s : Supplicant) :
    letI := realKw
    ∃ c, s.receiveAll akm kck kek temp (ds.map Prod.fst) =
      .ok ⟨c, (fresh s.counter (ds.filterMap Prod.snd)).reverse ++ s.installed⟩ := by
  letI := realKw
  induction ds generalizing s with
  | nil => exact ⟨s.counter, rfl⟩
  | cons d ds ih =>
    obtain ⟨b, d⟩ := d
    have ih := ih fun d hd => h d (List.mem_cons_of_mem _ hd)
    have h := h (b, d) (by simp)
    dsimp only at h
    rw [List.map_cons]
    cases h with
    | @sent m g b hm hs =>
      obtain ⟨out, mic1, kd, data, hs', _, _, _, _, hd, hl⟩ := group_key_sent hm kck kek akm ha
      rw [hs] at hs'
      cases hs'
      by_cases hc : s.counter < m.frame.key_replay_counter.toNat
      · obtain ⟨c, hr⟩ := ih ⟨m.frame.key_replay_counter.toNat, (m.frame.key_replay_counter.toNat, g) :: s.installed⟩
        refine ⟨c, ?_⟩
        show (s.receive akm kck kek temp b >>= _) = _
        simp only [Supplicant.receive, hd, hm.flag, hc, hl, and_self, if_true, Res.ok_bind, hr]
        simp [fresh, hc]
      · obtain ⟨c, hr⟩ := ih s
        refine ⟨c, ?_⟩
        show (s.receive akm kck kek temp b >>= _) = _
        simp only [Supplicant.receive, hd, hc, and_false, if_false, Res.ok_bind, hr]
        simp [fresh, hc]
    | forged hp hf =>
      obtain ⟨c, hr⟩ := ih s
      refine ⟨c, ?_⟩
      show (s.receive akm kck kek temp b >>= _) = _
      have : s.receive akm kck kek temp b = .ok s := by
        unfold Supplicant.receive
        split
        · rename_i he; exact absurd he hp
        · rfl
        · rename_i r he
          rw [if_neg]
          rw [hf r he]
          simp
      rw [this, Res.ok_bind, hr]
      simp

omit [ScrollRule] [Crc32] [HmacSha1] in
private theorem fresh_newest {α : Type} (c : Nat) (g : α) (ps : List (Nat × α)) (last : Nat) (hin : (c, g) ∈ ps)
    (hc : last < c) (hmax : ∀ p ∈ ps, p.1 ≤ c) (huniq : ∀ p ∈ ps, p.1 = c → p.2 = g) :
    (fresh last ps).getLast? = some (c, g) := by
  have none_after : ∀ qs : List (Nat × α), (∀ p ∈ qs, p.1 ≤ c) → fresh c qs = [] := by
    intro qs
    induction qs with
    | nil => intro _; rfl
    | cons q qs ih =>
      intro h
      have := h q (by simp)
      rw [fresh, if_neg (by omega)]
      exact ih fun p hp => h p (List.mem_cons_of_mem _ hp)
  induction ps generalizing last with
  | nil => cases hin
  | cons p ps ih =>
    have hm := hmax p (by simp)
    have hmax' := fun q hq => hmax q (List.mem_cons_of_mem _ hq)
    have huniq' := fun q hq => huniq q (List.mem_cons_of_mem _ hq)
    rw [fresh]
    by_cases hp : p.1 = c
    · have hg := huniq p (by simp) hp
      rw [if_pos (by omega), hp, none_after ps hmax']
      cases p; cases hp; cases hg; rfl
    · have hin' : (c, g) ∈ ps := by
        rcases List.mem_cons.1 hin with rfl | h
        · exact absurd rfl hp
        · exact h
      split
      · have := ih p.1 hin' (by omega) hmax' huniq'
        cases hf : fresh p.1 ps with
        | nil => rw [hf] at this; cases this
        | cons q qs => rw [hf] at this; rw [List.getLast?_cons_cons]; exact this
      · exact ih last hin' hc hmax' huniq'

/-- After any such deliveries the newest group key that was delivered is in force, under its key ID: it does not
matter what came before or after it. -/
theorem c86_newest_partial (akm : IEEE80211AkmType) (ha : akm.keyMicLen = some 16) (kck kek : Arr 16) (buf : Bytes)
    (temp : Nat) (ds : List (Bytes × Option (Nat × GtkKde)))
    (h : letI := realKw; ∀ d ∈ ds, Delivered akm kck kek buf temp d.1 d.2) (s : Supplicant)
    (c : Nat) (g : GtkKde) (hin : ∃ b, (b, some (c, g)) ∈ ds) (hc : s.counter < c)
    (hmax : ∀ b c' g', (b, some (c', g')) ∈ ds → c' ≤ c ∧ (c' = c → g' = g)) :
    letI := realKw
    ∃ s', s.receiveAll akm kck kek temp (ds.map Prod.fst) = .ok s' ∧
      s'.key (g.gtk_info.bits.extractLsb' 0 2) = some g := by
  letI := realKw
  obtain ⟨c', hr⟩ := c86_schedule_partial akm ha kck kek buf temp ds h s
  refine ⟨_, hr, ?_⟩
  have hmem : ∀ p : Nat × GtkKde, p ∈ ds.filterMap Prod.snd → ∃ b, (b, some p) ∈ ds := by
    intro p hp
    obtain ⟨⟨b, q⟩, hd, hq⟩ := List.mem_filterMap.1 hp
    cases hq
    exact ⟨b, hd⟩
  obtain ⟨b, hin⟩ := hin
  have hl := fresh_newest c g (ds.filterMap Prod.snd) s.counter (List.mem_filterMap.2 ⟨_, hin, rfl⟩) hc
    (fun p hp => by obtain ⟨b, hb⟩ := hmem p hp; exact (hmax b p.1 p.2 hb).1)
    (fun p hp => by obtain ⟨b, hb⟩ := hmem p hp; exact (hmax b p.1 p.2 hb).2)
  obtain ⟨l, hl⟩ := List.getLast?_eq_some_iff.1 hl
  simp only [Supplicant.key, hl, List.reverse_append, List.reverse_cons, List.reverse_nil, List.nil_append,
    List.cons_append, List.find?_cons, beq_self_eq_true, Option.map_some]

omit [Crc32] in
/-- Whatever bytes are received, a key is never installed again: the counters of what is installed only grow. -/
theorem c86_once [AesKw] (akm : IEEE80211AkmType) (kck kek : Arr 16) (temp : Nat) (bytes : List Bytes) (s s' : Supplicant)
    (h : s.receiveAll akm kck kek temp bytes = .ok s') (hc : ∀ p ∈ s.installed, p.1 ≤ s.counter)
    (ho : s.installed.Pairwise fun p q => q.1 < p.1) :
    s.installed <:+ s'.installed ∧ s'.installed.Pairwise fun p q => q.1 < p.1 := by
  induction bytes generalizing s with
  | nil => cases h; exact ⟨List.suffix_refl _, ho⟩
  | cons b bs ih =>
    obtain ⟨t, ht, h⟩ := Res.bind_eq_ok h
    unfold Supplicant.receive at ht
    split at ht
    · cases ht
    · cases ht; exact ih s h hc ho
    · split at ht
      · rename_i r _ hlt
        split at ht
        · cases ht
          obtain ⟨h1, h2⟩ := ih _ h
            (by
              intro p hp
              rcases List.mem_cons.1 hp with rfl | hp
              · exact Nat.le_refl _
              · exact Nat.le_of_lt (Nat.lt_of_le_of_lt (hc p hp) hlt.2))
            (List.pairwise_cons.2 ⟨fun p hp => Nat.lt_of_le_of_lt (hc p hp) hlt.2, ho⟩)
          exact ⟨(List.suffix_cons _ _).trans h1, h2⟩
        · cases ht; exact ih s h hc ho
        · cases ht; exact ih s h hc ho
        · cases ht
      · cases ht; exact ih s h hc ho

omit [Crc32] in
/-- Whatever bytes are received, a key that is installed came in a frame with the right MIC, whose counter is the one
noted and in whose key data the key is. -/
theorem c86_authentic [AesKw] (akm : IEEE80211AkmType) (ha : akm.keyMicLen = some 16) (kck kek : Arr 16) (temp : Nat)
    (bytes : List Bytes) (s s' : Supplicant) (h : s.receiveAll akm kck kek temp bytes = .ok s') (p : Nat × GtkKde)
    (hp : p ∈ s'.installed) :
    p ∈ s.installed ∨ ∃ b ∈ bytes, ∃ hd n r, readDataHeader b = .ok (hd, n) ∧
      MicMatches kck b (hd.lengthInBytes + 8) 16 ∧
      deserializeEapolDataFrame (some kck) (some kek) b temp akm false = .ok r ∧
      r.key_replay_counter.toNat = p.1 ∧ getFirstElement r.key_data gtkKind = .ok (some p.2) := by
  induction bytes generalizing s with
  | nil => cases h; exact .inl hp
  | cons b bs ih =>
    obtain ⟨t, ht, h⟩ := Res.bind_eq_ok h
    rcases ih t h with hin | ⟨b', hb', hrest⟩
    · unfold Supplicant.receive at ht
      split at ht
      · cases ht
      · cases ht; exact .inl hin
      · rename_i r hr
        split at ht
        · rename_i hlt
          split at ht
          · rename_i g hg
            cases ht
            rcases List.mem_cons.1 hin with rfl | hin
            · obtain ⟨c, m, hd, n, hck, hmm, hh, _, _, hmic⟩ := c40_accepted _ _ b temp akm false r hr hlt.1
              cases hck
              rw [ha] at hmm
              cases hmm
              exact .inr ⟨b, by simp, hd, n, r, by simpa [withoutFcs] using hh, by simpa [withoutFcs] using hmic, hr,
                rfl, hg⟩
            · exact .inl hin
          · cases ht; exact .inl hin
          · cases ht; exact .inl hin
          · cases ht
        · cases ht; exact .inl hin
    · exact .inr ⟨b', List.mem_cons_of_mem _ hb', hrest⟩

omit [Crc32] in
/-- Violation: the MIC is only looked at if the received frame asks for it.  For every group key there is a frame that
anyone can make up, without MIC and not encrypted, which is accepted with this group key whatever the keys: a
supplicant that does not itself look at the MIC flag, as `receive` does, can be given any group key. -/
theorem c86_forged_wrong [AesKw] (akm : IEEE80211AkmType) (ha : akm.keyMicLen = some 16) (g : GtkKde)
    (hg : g.gtk.length ≤ 249) (counter : BitVec 64) :
    ∃ bytes : Bytes, ∀ (kck kek : Option (Arr 16)) (temp : Nat),
      ∃ r, deserializeEapolDataFrame kck kek bytes temp akm false = .ok r ∧ r.key_replay_counter = counter ∧
        getFirstElement r.key_data gtkKind = .ok (some g) := by
  have hsl := slack_le
  let f : EapolKeyFrame Bytes := {
    key_information := ⟨0x0082⟩, key_length := 16, key_replay_counter := counter, key_nonce := Arr.zero 32,
    key_iv := 0, key_rsc := 0, key_mic := List.replicate 16 0, key_data := [gtkRaw g].flatMap tlv }
  let h : DataFrameHeader := ⟨.Data, ⟨2⟩, 0, Arr.zero 6, Arr.zero 6, Arr.zero 6, ⟨0⟩, none, none, none⟩
  have hlen : ([gtkRaw g].flatMap tlv).length = g.gtk.length + 8 := by
    simp [tlv, gtkRaw]; omega
  have hf1 : f.key_information.key_mic = false := show (⟨0x0082⟩ : KeyInformation).key_mic = false by decide
  have hf2 : f.key_information.encrypted_key_data = false :=
    show (⟨0x0082⟩ : KeyInformation).encrypted_key_data = false by decide
  refine ⟨eapolPrefix h (Arr.zero 3) 0x888e ++ eapolWire 2 f (Arr.zero 8).val f.key_data, fun kck kek temp => ⟨f, ?_, rfl,
    gtk_found g hg⟩⟩
  have := c39_deserialise kck kek h ⟨by decide, DataFrameSubtype.canonical_fromBits 0⟩ ⟨by decide, by decide, by decide⟩
    (Arr.zero 3) 2 f (Arr.zero 8) f.key_data temp akm (by rw [ha]; rfl)
    (by show 79 + 16 + ([gtkRaw g].flatMap tlv).length < _; omega)
    (by show slack ≤ ([gtkRaw g].flatMap tlv).length; omega) (fun hm => by rw [hf1] at hm; cases hm)
    (by rw [hf2]; rfl)
  simpa [deserializeEapolDataFrame] using this

/-- Violation: under the strict offset rule the acknowledgement without key data, as the standard has it, never
reaches the authenticator. -/
theorem c86_acknowledgement_strict (hs : slack = 1) (akm : IEEE80211AkmType) (ha : akm.keyMicLen = some 16)
    (kckA kekA kckS kekS : Arr 16) (buf : Bytes) (temp : Nat) (ht : 24 ≤ temp) (m1 : Message Chain) (m2 : Message Bytes)
    (hd : m2.frame.key_data = []) (hv : ValidData m2.header) (hc : HeaderConsistent m2.header)
    (h16 : m2.frame.key_mic.length = 16) (henc : m2.frame.key_information.encrypted_key_data = false)
    (hb : m2.header.lengthInBytes + 108 ≤ buf.length) :
    letI := realKw
    ∀ o, groupHandshake akm kckA kekA kckS kekS buf temp m1 m2 ≠ .ok o := by
  letI := realKw
  intro o ho
  unfold groupHandshake at ho
  obtain ⟨f1, s1, ho⟩ := Res.bind_eq_ok ho
  obtain ⟨r1, d1, ho⟩ := Res.bind_eq_ok ho
  obtain ⟨g, _, ho⟩ := Res.bind_eq_ok ho
  obtain ⟨f2, s2, ho⟩ := Res.bind_eq_ok ho
  obtain ⟨r2, d2, ho⟩ := Res.bind_eq_ok ho
  obtain ⟨mic, hml, rfl⟩ := message_send_empty (m := m2.answering r1) hv h16 henc hd ht hb (fun _ => rfl) s2
  exact message_empty_refused hs (some kckA) (some kekA) m2.header hv hc m2.oui
    { (m2.answering r1).frame with key_mic := mic } temp akm (by rw [ha, hml]) hml henc _ d2

/-! ## Concrete cases -/

/-- Two group key messages, counters 5 and 6, with a toy HMAC and key wrap.  Delivered in order both keys are installed;
delivered as 6, 5, 6, only the second one; a supplicant with another KCK installs nothing, and a changed byte makes a
frame be discarded. -/
example (s : Bool) :
    letI : ScrollRule := ⟨s⟩
    letI : Crc32 := ⟨fun _ => 0⟩
    letI := mixHmac
    letI := toyKw
    let g1 : GtkKde := ⟨⟨1⟩, List.replicate 16 0x77⟩
    let g2 : GtkKde := ⟨⟨6⟩, List.replicate 16 0x78⟩
    let msg := fun (n : BitVec 64) g =>
      let m : Message Chain := toyMessage 0x1382 (.last (.typed (gtkElem g)))
      { m with frame := { m.frame with key_replay_counter := n } }
    let k : Arr 16 := Arr.zero 16
    let k' : Arr 16 := ⟨List.replicate 16 1, by decide⟩
    let send := fun m => sendFrame (some k) (some k) m.ofChain (List.replicate 300 7) 100
    let run := fun k fs => Supplicant.receiveAll .Psk k k 100 ⟨4, []⟩ fs
    (do
      let f1 ← send (msg 5 g1)
      let f2 ← send (msg 6 g2)
      pure [← run k [f1, f2], ← run k [f2, f1, f2], ← run k' [f1, f2], ← run k [f1.set 60 1, f2]] : Res _) =
        .ok [⟨6, [(6, g2), (5, g1)]⟩, ⟨6, [(6, g2)]⟩, ⟨4, []⟩, ⟨6, [(6, g2)]⟩] ∧
    (Supplicant.mk 6 [(6, g2), (5, g1)]).key 1 = some g1 ∧ (Supplicant.mk 6 [(6, g2), (5, g1)]).key 2 = some g2 := by
  cases s <;> decide +kernel

/-- The whole handshake in that setting. -/
example (s : Bool) :
    letI : ScrollRule := ⟨s⟩
    letI : Crc32 := ⟨fun _ => 0⟩
    letI := mixHmac
    letI := toyKw
    let g : GtkKde := ⟨⟨1⟩, List.replicate 16 0x77⟩
    let k : Arr 16 := Arr.zero 16
    (groupHandshake .Psk k k k k (List.replicate 300 7) 100 (toyMessage 0x1382 (.last (.typed (gtkElem g))))
      (toyMessage 0x0302 [0])).map (fun o => (o.2.1, o.2.2.key_data)) = .ok (some g, [0]) := by
  cases s <;> decide +kernel

/-- Messages meeting the hypotheses. -/
example (s : Bool) :
    letI : ScrollRule := ⟨s⟩
    let g : GtkKde := ⟨⟨1⟩, List.replicate 16 0x77⟩
    (toyMessage 0x1382 (.last (.typed (gtkElem g)))).GroupKey g (List.replicate 300 7) 100 := by
  letI : ScrollRule := ⟨s⟩
  have hv : ValidData (toyMessage 0 ()).header := ⟨by decide, DataFrameSubtype.canonical_fromBits 0⟩
  have hc : HeaderConsistent (toyMessage 0 ()).header := ⟨by decide, by decide, by decide⟩
  have hl : (toyMessage 0 ()).header.lengthInBytes = 24 := by decide
  refine ⟨hv, hc, rfl, show (⟨0x1382⟩ : KeyInformation).key_mic = true by decide,
    show (⟨0x1382⟩ : KeyInformation).encrypted_key_data = true by decide, rfl, by decide, by decide, ?_⟩
  rw [List.length_replicate, List.length_replicate]
  have hl : (toyMessage 0x1382 (Chain.last (.typed (gtkElem ⟨⟨1⟩, List.replicate 16 0x77⟩)))).header.lengthInBytes =
    24 := hl
  omega

end Verif
