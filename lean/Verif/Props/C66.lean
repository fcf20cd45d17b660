import Verif.Props.C39
import Verif.Props.C53
import Verif.Props.C65
/-!
# C66: EAPOL key frames are recognised

What `serialize_eapol_data_frame` makes is recognised by `is_eapol_key_frame` and arrives in the data arm of
`match_frames!`; and what `deserialize_eapol_data_frame` accepts is recognised.
-/
namespace Verif

namespace Spec

/-- The subtype number in the first byte of a data frame says that there is a payload. -/
def CarriesPayload (bs : Bytes) : Prop := ∃ b0 rest, bs = b0 :: rest ∧ b0.toNat / 64 % 2 = 0

end Spec

open Spec

variable [ScrollRule] [Crc32]

omit [Crc32] in
private theorem accepted_start (bs : Bytes) (h : DataFrameHeader) (hr : pread readDataHeader 0 bs = .ok h) :
    ∃ b0 rest, bs = b0 :: h.fcf_flags.bits :: (dataHeaderWire h ++ rest) ∧ b0.toNat / 4 % 4 = 2 ∧
      h.lengthInBytes = dataHeaderLength b0 h.fcf_flags.bits ∧ 24 ≤ bs.length := by
  rw [pread0] at hr
  split at hr
  · cases hr
  · cases hx : readDataHeader bs with
    | err e => rw [hx] at hr; cases hr
    | panic => rw [hx] at hr; cases hr
    | ok x =>
      obtain ⟨h', n⟩ := x
      rw [hx] at hr
      obtain rfl : h' = h := by simpa [Res.map] using hr
      obtain ⟨b0, rest, hi, hn, ht, _⟩ := c27_parse bs h' n hx
      obtain ⟨c0, c1, r, hi', _, hd, hle⟩ := (c27_accepts_iff bs n).1 ⟨h', hx⟩
      rw [hi] at hi'
      obtain ⟨rfl, rfl, _⟩ : b0 = c0 ∧ h'.fcf_flags.bits = c1 ∧ dataHeaderWire h' ++ rest = r := by
        simpa using hi'
      refine ⟨b0, rest, hi, ht, ?_, ?_⟩
      · rw [c27_length, ← hn, hd]
      · have : 24 ≤ dataHeaderLength b0 h'.fcf_flags.bits := by unfold dataHeaderLength; omega
        omega

/-- Whatever `deserialize_eapol_data_frame` accepts, with whatever keys, is recognised as an EAPOL key frame,
if its subtype says that it carries a payload.  Partial: see `c66_null_accepted`. -/
theorem c66_accepted_partial [HmacSha1] [AesKw] (kck kek : Option (Arr 16)) (bs : Bytes) (temp : Nat)
    (akm : IEEE80211AkmType) (g : EapolKeyFrame Bytes)
    (hd : deserializeEapol kck kek bs temp akm = .ok g) :
    (CarriesPayload bs → (GenericFrame.mk bs).isEapolKeyFrame = .ok true) ∧
    (¬ CarriesPayload bs → (GenericFrame.mk bs).isEapolKeyFrame = .ok false) := by
  unfold deserializeEapol at hd
  cases hh : pread readDataHeader 0 bs with
  | err e => rw [hh] at hd; cases hd
  | panic => rw [hh] at hd; cases hd
  | ok h =>
    rw [hh] at hd
    simp only [Res.mapErr, Res.ok_bind] at hd
    obtain ⟨b0, rest, hi, ht, hlen, h24⟩ := accepted_start bs h hh
    have hcp : CarriesPayload bs ↔ b0.toNat / 64 % 2 = 0 := by
      constructor
      · rintro ⟨c, r, hc, h2⟩
        rw [hi] at hc
        rw [(List.cons.inj hc).1]; exact h2
      · intro h2; exact ⟨b0, _, hi, h2⟩
    constructor
    · intro hp
      refine (c53_exact bs (by omega)).1.2 ?_
      cases hg : getFrom bs (h.lengthInBytes + 6) with
      | err e => rw [hg] at hd; cases hd
      | panic => rw [hg] at hd; cases hd
      | ok tail =>
        rw [hg] at hd
        simp only [Res.ok_bind] at hd
        have htail : h.lengthInBytes + 6 ≤ bs.length ∧ tail = bs.drop (h.lengthInBytes + 6) := by
          unfold getFrom at hg
          split at hg
          · rename_i hle
            exact ⟨hle, by simpa using hg.symm⟩
          · cases hg
        cases he : pread (readBE 16) 0 tail with
        | err e => rw [he] at hd; cases hd
        | panic => rw [he] at hd; cases hd
        | ok v =>
          rw [he] at hd
          simp only [Res.ok_bind] at hd
          by_cases hv : v = 0x888e#16
          · subst hv
            have hpar := (Parses.gread' (readBE_parses 16 rfl))
            obtain ⟨packet, hpk⟩ : ∃ packet, tail = [0x88, 0x8e] ++ packet := by
              rw [pread0] at he
              split at he
              · cases he
              · cases hx : readBE 16 tail with
                | err e => rw [hx] at he; cases he
                | panic => rw [hx] at he; cases he
                | ok y =>
                  obtain ⟨v, n⟩ := y
                  rw [hx] at he
                  obtain rfl : v = 0x888e#16 := by simpa [Res.map] using he
                  obtain ⟨bs', rest', hb, _, rfl⟩ := readBE_parses 16 rfl _ _ _ hx
                  exact ⟨rest', hb⟩
            refine ⟨b0, h.fcf_flags.bits, _, (bs.drop h.lengthInBytes).take 6, packet, hi, ht, hcp.1 hp,
              by omega, ?_, by simp; omega⟩
            rw [← hlen, ← hpk, htail.2, ← List.drop_drop, List.take_append_drop]
          · rw [if_pos hv] at hd; cases hd
    · intro hp
      refine (c53_exact bs (by omega)).2.2 ?_
      rintro ⟨c0, c1, r, _, _, hc, _, h2, _⟩
      exact hp ⟨c0, _, hc, h2⟩

omit [ScrollRule] [Crc32] in
private theorem carries_iff (h : DataFrameHeader) (hv : ValidData h) (rest : Bytes) :
    CarriesPayload (frameStart (.Data h.subtype) h.fcf_flags ++ rest) ↔ payloadSubtype h.subtype := by
  have hlt : h.subtype.intoBits.toNat < 16 := hv.1
  have hb : (BitVec.ofNat 8 (4 * (typeNumbers (.Data h.subtype)).1 + 16 * (typeNumbers (.Data h.subtype)).2)).toNat
      = 8 + 16 * h.subtype.intoBits.toNat := by
    simp only [typeNumbers, BitVec.toNat_ofNat]
    omega
  rw [payloadSubtype]
  constructor
  · rintro ⟨b0, r, hr, h2⟩
    rw [← (List.cons.inj hr).1, hb] at h2
    omega
  · intro h2
    refine ⟨_, _, rfl, ?_⟩
    rw [hb]
    omega

/-- A key frame that is sent, protected or not, with a check sequence or without: its bytes are accepted by
`GenericFrame::new` and recognised; in `match_frames!` they arrive in the first arm for data frames, with the
header that was sent; and they are deserialised.  Partial: the subtype must be one with a payload
(`c66_null_accepted`), and the conditions of `c39_round_trip_partial` hold. -/
theorem c66_sent_partial [HmacSha1] [AesKw] [LawfulAesKw] (kck kek : Option (Arr 16)) (h : DataFrameHeader)
    (hv : ValidData h) (hc : HeaderConsistent h) (hpay : payloadSubtype h.subtype) (oui : Arr 3)
    (f : EapolKeyFrame Bytes) (akm : IEEE80211AkmType) (ha : akm.keyMicLen = some f.key_mic.length)
    (hmic : f.key_information.key_mic = true → f.key_mic = List.replicate 16 0 ∧ kck.isSome)
    (henc : f.key_information.encrypted_key_data = true → f.key_data ≠ [] ∧ kek.isSome)
    (hs : slack ≤ f.key_data.length) (buf : Bytes) (temp : Nat)
    (ht : f.key_data.length + 24 ≤ temp) (hl : f.key_mic.length + f.key_data.length + 103 < 65536)
    (hb : h.lengthInBytes + f.key_mic.length + f.key_data.length + 115 ≤ buf.length)
    {α : Type} (block : DataFrame Bytes → α) (pre post : List (FrameKind × (Bool → Reader α)))
    (hpre : ∀ a ∈ pre, a.1 = controlFrameKind ∨ ∃ k : MgmtKind, a.1 = k.frame) (fcs : Bool) :
    ∃ out packet mic,
      serializeEapolDataFrame kck kek ⟨h, some ⟨oui, 0x888e, { f with key_data := bytesObj f.key_data }⟩⟩ buf temp =
        .ok (out ++ buf.drop out.length, out.length) ∧
      (∃ g, GenericFrame.new (withFcs fcs out) fcs = .ok g ∧ g.isEapolKeyFrame = .ok true) ∧
      matchFrames (withFcs fcs out) (if fcs then some true else none)
        (pre ++ armOf dataFrameKind readDataFrame block :: post) = .ok (pre.length,
          block ⟨h, some ([0xaa, 0xaa, 0x03] ++ oui.val ++ [0x88, 0x8e] ++ packet)⟩) ∧
      deserializeEapolDataFrame kck kek (withFcs fcs out) temp akm fcs =
        .ok { f with
          key_mic := mic
          key_data := if f.key_information.encrypted_key_data then padKeyData f.key_data else f.key_data } := by
  obtain ⟨out, mic, hser, ⟨kd, _, _, ho⟩, _, hdes⟩ := c39_round_trip_partial kck kek h hv hc oui f akm ha hmic henc hs
    buf temp ht hl hb
  have hw : out = dataFrameWire h (snapWire oui 0x888e (eapolWire 2 { f with key_mic := mic } (Arr.zero 8).val kd)) := by
    rw [ho]; simp [dataFrameWire, eapolPrefix, snapWire]
  have hlen : 10 ≤ out.length := by
    rw [hw]; simp [dataFrameWire, dataHeaderWire]; omega
  have h0 := hdes (Arr.zero 4) false
  simp only [Bool.false_eq_true, if_false, List.append_nil] at h0
  have hrec := (c66_accepted_partial kck kek out temp akm _ h0).1 (by
    rw [hw]; exact (carries_iff h hv _).2 hpay)
  refine ⟨out, eapolWire 2 { f with key_mic := mic } (Arr.zero 8).val kd, mic, hser, ⟨⟨out⟩, ?_, hrec⟩, ?_, ?_⟩
  · exact (c24_new _ _ _).2 ⟨rfl, hlen⟩
  · obtain ⟨h1, h2⟩ := c65_data ⟨h, some (snapWire oui 0x888e (eapolWire 2 { f with key_mic := mic }
      (Arr.zero 8).val kd))⟩ hv hc (by simp [PayloadConsistent, hpay]) block pre post hpre
    have hx : snapWire oui 0x888e (eapolWire 2 { f with key_mic := mic } (Arr.zero 8).val kd) =
        [0xaa, 0xaa, 0x03] ++ oui.val ++ [0x88, 0x8e] ++ eapolWire 2 { f with key_mic := mic } (Arr.zero 8).val kd := by
      have : toBE (0x888e : BitVec 16) = [0x88, 0x8e] := by decide
      rw [snapWire, this]
      simp
    rw [← hx]
    simp only [Option.getD_some] at h1 h2
    rw [← hw] at h1 h2
    cases fcs
    · exact h1
    · exact h2 true
  · have := hdes ⟨toLE (Crc32.hash out), by simp⟩ fcs
    rw [← this]
    cases fcs <;> simp [withFcs]

/-- Violation: a key frame sent with a subtype that carries no payload is written with its payload and
deserialised, but `is_eapol_key_frame` says that it is none. -/
theorem c66_null_accepted [HmacSha1] [AesKw] [LawfulAesKw] (kck kek : Option (Arr 16)) (h : DataFrameHeader)
    (hv : ValidData h) (hc : HeaderConsistent h) (hpay : ¬ payloadSubtype h.subtype) (oui : Arr 3)
    (f : EapolKeyFrame Bytes) (akm : IEEE80211AkmType) (ha : akm.keyMicLen = some f.key_mic.length)
    (hmic : f.key_information.key_mic = true → f.key_mic = List.replicate 16 0 ∧ kck.isSome)
    (henc : f.key_information.encrypted_key_data = true → f.key_data ≠ [] ∧ kek.isSome)
    (hs : slack ≤ f.key_data.length) (buf : Bytes) (temp : Nat)
    (ht : f.key_data.length + 24 ≤ temp) (hl : f.key_mic.length + f.key_data.length + 103 < 65536)
    (hb : h.lengthInBytes + f.key_mic.length + f.key_data.length + 115 ≤ buf.length) :
    ∃ out g,
      serializeEapolDataFrame kck kek ⟨h, some ⟨oui, 0x888e, { f with key_data := bytesObj f.key_data }⟩⟩ buf temp =
        .ok (out ++ buf.drop out.length, out.length) ∧
      deserializeEapolDataFrame kck kek out temp akm false = .ok g ∧ g.key_nonce = f.key_nonce ∧
      (GenericFrame.mk out).isEapolKeyFrame = .ok false := by
  obtain ⟨out, mic, hser, ⟨kd, _, _, ho⟩, _, hdes⟩ := c39_round_trip_partial kck kek h hv hc oui f akm ha hmic henc hs
    buf temp ht hl hb
  have h0 := hdes (Arr.zero 4) false
  simp only [Bool.false_eq_true, if_false, List.append_nil] at h0
  refine ⟨out, _, hser, h0, rfl, (c66_accepted_partial kck kek out temp akm _ h0).2 ?_⟩
  rw [ho, eapolPrefix, List.append_assoc]
  exact fun hx => hpay ((carries_iff h hv _).1 hx)

/-! ## Concrete cases -/

omit [ScrollRule] [Crc32] in
/-- A protected frame with wrapped key data is written, recognised and taken by the data arm; the same frame
written with the subtype `Null` is deserialised but not recognised. -/
example (s : Bool) :
    letI : ScrollRule := ⟨s⟩
    letI : Crc32 := ⟨fun _ => 0⟩
    letI := toyHmac
    letI := toyKw
    let k : Option (Arr 16) := some (Arr.zero 16)
    let f := toyInput 0x1102 (List.replicate 16 0) (List.replicate 17 1)
    let null : EapolDataFrame Obj := ⟨{ f.header with subtype := .Null }, f.payload⟩
    let sent (f : EapolDataFrame Obj) : Bytes :=
      match serializeEapolDataFrame k k f (List.replicate 300 7) 100 with
      | .ok (out, n) => out.take n
      | _ => []
    payloadSubtype f.header.subtype ∧ ¬ payloadSubtype null.header.subtype ∧
    (GenericFrame.mk (sent f)).isEapolKeyFrame = .ok true ∧
    matchFrames (sent f) none [armOf MgmtKind.Beacon.frame (readMgmtFrame readBeaconLike) fun _ => 0,
      armOf dataFrameKind readDataFrame fun d => (d.payload.getD []).length] =
        .ok (1, (sent f).length - 24) ∧
    (deserializeEapolDataFrame k k (sent null) 100 .Psk false).map (·.key_length) = .ok 0x0102 ∧
    (GenericFrame.mk (sent null)).isEapolKeyFrame = .ok false := by
  cases s <;> decide +kernel

end Verif
