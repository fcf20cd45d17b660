import Verif.Props.C39
import Verif.Model.InPlace
/-!
# C75: what the caller finds in the buffer

`deserialize_eapol_data_frame` decrypts in the buffer it is given.  What the caller finds there afterwards is
specified here by the pieces of an encrypted frame.
-/
namespace Verif

namespace Spec

/-- A buffer `before` with an encrypted key frame which begins at `start` and has a MIC of `m` bytes, and the
buffer `after` decryption: the body length (which counts the bytes up to position `last`), the key data length and
the key data are replaced; the last eight bytes of the encrypted key data, what follows them and everything else
stay as they are. -/
def Decrypted [AesKw] (kek : Option (Arr 16)) (start m last : Nat) (before after : Bytes) : Prop :=
  ∃ front oldLength middle secret back key plain,
    before = front ++ (oldLength ++ (middle ++ (toBE (BitVec.ofNat 16 secret.length) ++ (secret ++ back)))) ∧
    after = front ++ (toBE (BitVec.ofNat 16 (last - 8 - start - 4)) ++ (middle ++
      (toBE (BitVec.ofNat 16 plain.length) ++ (plain ++ (secret.drop plain.length ++ back))))) ∧
    front.length = start + 2 ∧ oldLength.length = 2 ∧ middle.length = 77 + m ∧ secret.length < 65536 ∧
    kek = some key ∧ AesKw.unwrap key secret = some plain

end Spec

open Spec

variable [ScrollRule]

/-! ## Steps -/

omit [ScrollRule] in
private theorem look_bind {α β : Type} (n : Nat) (f : Bytes → Res α) (g : α → InPlace β) (b : Bytes) :
    (InPlace.look n f >>= g) b = match f (b.take n) with
      | .ok a => g a b
      | .err e => (.err e, b)
      | .panic => (.panic, b) := by
  show (match (f (b.take n), b) with | (.ok a, b') => g a b' | (.err e, b') => (.err e, b') | (.panic, b') => (.panic, b')) = _
  cases f (b.take n) <;> rfl

omit [ScrollRule] in
private theorem look_bind' {α β : Type} (n : Nat) (f : Bytes → Res α) (g : α → InPlace β) (b v : Bytes) (a : α)
    (hv : b.take n = v) (h : f v = .ok a) : (InPlace.look n f >>= g) b = g a b := by
  rw [look_bind, hv, h]

private theorem edit_bind {β : Type} (n : Nat) (w : Writer) (o : Nat) (g : Unit → InPlace β) (v r v' : Bytes) (k : Nat)
    (hn : n = v.length) (h : pwrite w o v = .ok (v', k)) : (InPlace.edit n w o >>= g) (v ++ r) = g () (v' ++ r) := by
  have : InPlace.edit n w o (v ++ r) = (.ok (), v' ++ r) := by
    subst hn
    simp only [InPlace.edit, List.take_left, List.drop_left, h]
  simp only [Bind.bind, this]

omit [ScrollRule] in
private theorem take_prefix (p y r : Bytes) (k : Nat) (hk : k ≤ y.length) :
    p ++ y.take k = (p ++ (y ++ r)).take (p ++ y.take k).length := by
  rw [List.length_append, List.length_take, Nat.min_eq_left hk, List.take_append,
    List.take_of_length_le (l := p) (by omega), Nat.add_sub_cancel_left, List.take_append_of_le_length hk]

/-- The decryption step in a larger buffer: `v` is the view, `r` the rest. -/
private theorem unwrap_in_place [AesKw] (kek : Option (Arr 16)) (v r : Bytes) (temp start m : Nat) :
    match unwrapKeyData kek v temp start m with
    | .panic => (InPlace.unwrapKeyData kek v.length temp start m (v ++ r)).1 = .panic
    | .err e => InPlace.unwrapKeyData kek v.length temp start m (v ++ r) = (.err e, v ++ r)
    | .ok v' => ∃ a c b k kd tail plain, v = a ++ (c ++ (b ++ (toBE (BitVec.ofNat 16 kd.length) ++ (kd ++ tail)))) ∧
        a.length = start + 2 ∧ c.length = 2 ∧ b.length = 77 + m ∧ kd.length < 65536 ∧ kek = some k ∧
        AesKw.unwrap k kd = some plain ∧
        InPlace.unwrapKeyData kek v.length temp start m (v ++ r) = (.ok v'.length,
          a ++ (toBE (BitVec.ofNat 16 (v.length - 8 - start - 4)) ++ (b ++ (toBE (BitVec.ofNat 16 plain.length) ++
            (plain ++ (kd.drop plain.length ++ (tail ++ r))))))) ∧
        v'.length + 8 = v.length ∧
        v' = (a ++ (toBE (BitVec.ofNat 16 (v.length - 8 - start - 4)) ++ (b ++ (toBE (BitVec.ofNat 16 plain.length) ++
            (plain ++ (kd.drop plain.length ++ (tail ++ r))))))).take v'.length := by
  have hsl := slack_le
  generalize hy : unwrapKeyData kek v temp start m = y
  have hy0 := hy
  unfold unwrapKeyData at hy
  unfold InPlace.unwrapKeyData
  dsimp only at hy ⊢
  simp only [look_bind, List.take_left]
  cases hv : pread (readBE 16) (start + 81 + m) v with
  | err e => rw [hv] at hy; subst hy; rfl
  | panic => rw [hv] at hy; subst hy; rfl
  | ok x =>
  rw [hv] at hy
  simp only [Res.mapErr, Res.ok_bind] at hy ⊢
  cases hkd : slice v (start + 81 + m + 2) x.toNat with
  | err e => rw [hkd] at hy; subst hy; rfl
  | panic => rw [hkd] at hy; subst hy; rfl
  | ok kd0 =>
  rw [hkd] at hy
  simp only [Res.ok_bind] at hy ⊢
  cases kek with
  | none => subst hy; rfl
  | some k =>
  simp only [Res.ofOption_some, Res.ok_bind] at hy ⊢
  cases hpl : Res.sub x.toNat 8 with
  | err e => rw [hpl] at hy; subst hy; rfl
  | panic => rw [hpl] at hy; subst hy; rfl
  | ok pl =>
  rw [hpl] at hy
  simp only [Res.ok_bind] at hy ⊢
  by_cases ht : temp < pl
  · rw [if_pos ht] at hy
    subst hy
    simp only [if_pos ht]
  rw [if_neg ht] at hy
  simp only [if_neg ht]
  by_cases h8 : kd0.length % 8 ≠ 0 ∨ kd0.length < 8
  · rw [if_pos h8] at hy
    subst hy
    simp only [if_pos h8]
  rw [if_neg h8] at hy
  simp only [if_neg h8]
  cases hplain : AesKw.unwrap k kd0 with
  | none => rw [hplain] at hy; subst hy; rfl
  | some plain =>
  clear hy
  simp only [Res.ofOption_some]
  obtain ⟨hs, hpl⟩ := Res.sub_ok hpl
  have hlen : start + 83 + m + x.toNat ≤ v.length ∧ kd0 = (v.drop (start + 81 + m + 2)).take x.toNat := by
    unfold slice at hkd
    split at hkd
    · cases hkd; exact ⟨by omega, rfl⟩
    · cases hkd
  obtain ⟨a, c, b, d, kd, tail, rfl, ha, hc, hb, hd, hkl, hdp⟩ := unwrap_pieces hv hlen.1
  have hkd0 : kd0 = kd := by
    rw [hlen.2]
    have h1 : a ++ (c ++ (b ++ (d ++ (kd ++ tail)))) = (a ++ (c ++ (b ++ d))) ++ (kd ++ tail) := by simp
    have h2 : (a ++ (c ++ (b ++ d))).length = start + 81 + m + 2 := by simp [ha, hc, hb, hd]; omega
    rw [h1, ← h2, List.drop_left, ← hkl, List.take_left]
  subst hkd0
  have hvl := x.isLt
  have hul := AesKw.unwrap_length k kd0 plain hplain
  rw [unwrap_run_exact k a c b d kd0 tail temp start m ha hc hb hdp hd (by omega) (by omega)
    (by omega) (by omega) plain hplain] at hy0
  have hdv : d = toBE (BitVec.ofNat 16 kd0.length) := by
    have h1 := toBE_fromBE (w := 16) rfl d (by rw [hd])
    obtain ⟨_, n, hr⟩ := pread_ok hdp
    unfold readBE at hr
    rw [if_pos (by simp [hd])] at hr
    simp only [List.drop_zero, Res.ok.injEq, Prod.mk.injEq] at hr
    rw [List.take_of_length_le (by omega)] at hr
    rw [← hr.1, h1]
  have hpl' : pl = plain.length := by omega
  subst hpl'
  have hvlen : (a ++ (c ++ (b ++ (d ++ (kd0 ++ tail))))).length = start + 83 + m + kd0.length + tail.length := by
    simp [ha, hc, hb, hd]; omega
  subst hy0
  refine ⟨a, c, b, k, kd0, tail, plain, by rw [hdv], ha, hc, hb, by omega, rfl, hplain, ?_, ?_, ?_⟩
  · have h1 : pwrite (writeBE (BitVec.ofNat 16 plain.length)) (start + 81 + m)
        (a ++ (c ++ (b ++ (d ++ (kd0 ++ tail))))) =
        .ok (a ++ (c ++ (b ++ (toBE (BitVec.ofNat 16 plain.length) ++ (kd0 ++ tail)))), 2) := by
      have := pwriteBE_mid (a ++ (c ++ b)) d (kd0 ++ tail) (BitVec.ofNat 16 plain.length)
        (p := start + 81 + m) (by simp [ha, hc, hb]; omega) hd
      simpa only [List.append_assoc] using this
    generalize hD2 : toBE (BitVec.ofNat 16 plain.length) = D2 at *
    have hD2l : D2.length = 2 := by rw [← hD2]; simp
    have h2 : pwrite (writeBytes plain) (start + 81 + m + 2) (a ++ (c ++ (b ++ (D2 ++ (kd0 ++ tail))))) =
        .ok (a ++ (c ++ (b ++ (D2 ++ (plain ++ (kd0.drop plain.length ++ tail))))), plain.length) := by
      have := pwriteBytes_mid (a ++ (c ++ (b ++ D2))) (kd0.take plain.length) plain (kd0.drop plain.length ++ tail)
        (p := start + 81 + m + 2) (by simp [ha, hc, hb, hD2l]; omega) (by simp; omega) (by simp; omega)
      rw [← List.append_assoc (kd0.take _), List.take_append_drop, List.length_take, Nat.min_eq_left (by omega)] at this
      simpa only [List.append_assoc] using this
    rw [edit_bind _ _ _ _ _ _ _ _ rfl h1, edit_bind _ _ _ _ _ _ _ _ (by simp [hd, hD2l]) h2]
    have hN : (a ++ (c ++ (b ++ (D2 ++ (plain ++ (kd0.drop plain.length ++ tail)))))).length =
        start + 83 + m + kd0.length + tail.length := by
      simp [ha, hc, hb, hD2l]; omega
    rw [hvlen]
    generalize hN' : start + 83 + m + kd0.length + tail.length = N at *
    rw [look_bind' N _ _ _ _ (N - 8) (by rw [← hN, List.take_left]) (by rw [hN, Res.sub, if_pos (by omega)]),
      look_bind' _ _ _ _ _ (N - 8 - start) rfl (by rw [Res.sub, if_pos (by omega)]),
      look_bind' _ _ _ _ _ (N - 8 - start - 4) rfl (by rw [Res.sub, if_pos (by omega)])]
    have hbig : a ++ (c ++ (b ++ (D2 ++ (plain ++ (kd0.drop plain.length ++ tail))))) ++ r =
        (a ++ (c ++ (b ++ (D2 ++ (plain ++ (kd0.drop plain.length ++ (tail ++ r))))).take (N - 8 - start - 4))) ++
          (b ++ (D2 ++ (plain ++ (kd0.drop plain.length ++ (tail ++ r))))).drop (N - 8 - start - 4) := by
      simp only [List.append_assoc, List.take_append_drop]
    rw [hbig, edit_bind _ _ _ _ _ _ _ _ (by simp [ha, hc, hb, hD2l]; omega) (pwriteBE_mid a c _ _ ha.symm hc)]
    have hlen2 : (a ++ (toBE (BitVec.ofNat 16 (N - 8 - start - 4)) ++ (b ++ (D2 ++ (plain ++
        (kd0.drop plain.length ++ tail).take tail.length))))).length = N - 8 := by
      simp [ha, hb, hD2l]; omega
    rw [hlen2]
    simp only [List.append_assoc, List.take_append_drop]
    rfl
  · simp [ha, hc, hb, hd]; omega
  · rw [hvlen]
    generalize toBE (BitVec.ofNat 16 plain.length) = D2
    have := take_prefix (a ++ (toBE (BitVec.ofNat 16 (start + 83 + m + kd0.length + tail.length - 8 - start - 4)) ++
      (b ++ (D2 ++ plain)))) (kd0.drop plain.length ++ tail) r tail.length (by simp)
    simpa only [List.append_assoc] using this

/-! ## The whole function -/

/-- What is proved of an outcome `x` when the model without buffer says `y`. -/
private def Fine [AesKw] (kek : Option (Arr 16)) (akm : IEEE80211AkmType) (v r : Bytes)
    (x : Res (EapolKeyFrame Bytes) × Bytes) (y : Res (EapolKeyFrame Bytes)) : Prop :=
  x.1 = y ∧ (y ≠ .panic → (x.2 = v ++ r ∧ (y.isOk = true → ∃ hd n info, readDataHeader v = .ok (hd, n) ∧
      v[hd.lengthInBytes + 13]? = some info ∧ info.getLsbD 4 = false)) ∨
    ((y.isOk = true ∨ y = .err EapolSerdeError.KeyFrameDeserializationFailure.code) ∧
      ∃ hd n m info, readDataHeader v = .ok (hd, n) ∧ akm.keyMicLen = some m ∧
        v[hd.lengthInBytes + 13]? = some info ∧ info.getLsbD 4 = true ∧
        Decrypted kek (hd.lengthInBytes + 8) m v.length (v ++ r) x.2))

omit [ScrollRule] in
private theorem Fine.look [ScrollRule] [AesKw] {α : Type} {kek : Option (Arr 16)} {akm : IEEE80211AkmType} {v r : Bytes}
    {f : Bytes → Res α} {g : α → InPlace (EapolKeyFrame Bytes)} {h : α → Res (EapolKeyFrame Bytes)}
    (hg : ∀ a, f v = .ok a → Fine kek akm v r (g a (v ++ r)) (h a)) :
    Fine kek akm v r ((InPlace.look v.length f >>= g) (v ++ r)) (f v >>= h) := by
  rw [look_bind, List.take_left]
  cases hf : f v with
  | ok a => exact hg a hf
  | err e => exact ⟨rfl, fun _ => .inl ⟨rfl, fun h => by cases h⟩⟩
  | panic => exact ⟨rfl, fun hp => absurd rfl hp⟩

private theorem deserialize_fine [HmacSha1] [AesKw] (kck kek : Option (Arr 16)) (v r : Bytes) (temp : Nat)
    (akm : IEEE80211AkmType) :
    Fine kek akm v r (InPlace.deserialize kck kek v.length temp akm (v ++ r)) (deserializeEapol kck kek v temp akm) := by
  unfold InPlace.deserialize deserializeEapol
  refine Fine.look fun hd hh => ?_
  obtain ⟨_, n, hr⟩ := pread_ok (Res.mapErr_ok hh)
  dsimp only
  refine Fine.look fun tail _ => Fine.look fun et _ => ?_
  split
  · exact ⟨rfl, fun _ => .inl ⟨rfl, fun h => by cases h⟩⟩
  refine Fine.look fun tail ht => Fine.look fun bits hb => Fine.look fun m hm => Fine.look fun _ _ => ?_
  have hm := Res.ofOption_ok hm
  have hlast : ∀ (w z : Bytes), (InPlace.look w.length fun b => Res.mapErr .KeyFrameDeserializationFailure
      (pread (readEapolKeyFrame akm) (hd.lengthInBytes + 8) b)) (w ++ z) = (Res.mapErr .KeyFrameDeserializationFailure
      (pread (readEapolKeyFrame akm) (hd.lengthInBytes + 8) w), w ++ z) := by
    intro w z
    simp only [InPlace.look, List.take_left]
  obtain ⟨hi, hget, hbit⟩ : ∃ hi, v[hd.lengthInBytes + 13]? = some hi ∧
      (KeyInformation.mk bits).encrypted_key_data = hi.getLsbD 4 := by
    have hs := slice_ok ht
    obtain ⟨x, hi, lo, z, hbody, hx, hbits⟩ := preadBE_ok (Res.mapErr_ok hb)
    have hx0 : x = [] := List.eq_nil_of_length_eq_zero hx
    subst hx0
    refine ⟨hi, ?_, ?_⟩
    · rcases hs with ⟨_, hs⟩ | ⟨_, _, hs⟩
      · have := congrArg (fun l => l[0]?) (hs.symm.trans hbody)
        rw [List.take_of_length_le (by simp)] at this
        simpa using this
      · rw [hs] at hbody; simp at hbody
    · show bits.getLsbD 12 = _
      rw [hbits, BitVec.getLsbD_append]
      simp
  unfold unwrapStep
  split
  · rename_i hf
    have hu := unwrap_in_place kek v r temp (hd.lengthInBytes + 8) m
    cases hy : unwrapKeyData kek v temp (hd.lengthInBytes + 8) m with
    | err e =>
      rw [hy] at hu
      dsimp only at hu
      refine ⟨?_, fun _ => .inl ⟨?_, fun h => by cases h⟩⟩ <;> simp only [Bind.bind, hu] <;> rfl
    | panic =>
      rw [hy] at hu
      dsimp only at hu
      refine ⟨?_, fun hp => absurd rfl hp⟩
      generalize InPlace.unwrapKeyData kek v.length temp (hd.lengthInBytes + 8) m = f at *
      simp only [Bind.bind]
      generalize f (v ++ r) = z at *
      obtain ⟨z1, z2⟩ := z
      subst hu
      rfl
    | ok v' =>
      rw [hy] at hu
      obtain ⟨a, c, b, k, kd, tl, plain, hv, ha, hc, hb', hk, hkek, hpl, hun, hvl, hv'⟩ := hu
      generalize hA : a ++ (toBE (BitVec.ofNat 16 (v.length - 8 - (hd.lengthInBytes + 8) - 4)) ++ (b ++
        (toBE (BitVec.ofNat 16 plain.length) ++ (plain ++ (kd.drop plain.length ++ (tl ++ r)))))) = A at *
      have hA' : A = v' ++ A.drop v'.length := by
        conv => rhs; lhs; rw [hv']
        rw [List.take_append_drop]
      have hrun : ∀ g : Nat → InPlace (EapolKeyFrame Bytes),
          (InPlace.unwrapKeyData kek v.length temp (hd.lengthInBytes + 8) m >>= g) (v ++ r) = g v'.length A := by
        intro g
        simp only [Bind.bind, hun]
      rw [hrun]
      simp only [Res.ok_bind]
      rw [hA', hlast]
      refine ⟨rfl, fun hp => .inr ⟨?_, ?_⟩⟩
      · generalize pread (readEapolKeyFrame akm) (hd.lengthInBytes + 8) v' = q at *
        cases q with
        | ok _ => exact .inl rfl
        | err _ => exact .inr rfl
        | panic => exact absurd rfl hp
      · refine ⟨hd, n, m, hi, by simpa using hr, hm, hget, hbit ▸ hf, ?_⟩
        rw [← hA']
        refine ⟨a, c, b, kd, tl ++ r, k, plain, ?_, hA.symm, ha, hc, hb', hk, hkek, hpl⟩
        rw [hv]
        simp only [List.append_assoc]
  · simp only [Res.ok_bind]
    show Fine kek akm v r (InPlace.look v.length _ (v ++ r)) _
    rw [hlast]
    rename_i hf
    exact ⟨rfl, fun _ => .inl ⟨rfl, fun _ => ⟨hd, n, hi, by simpa using hr, hget, by
      rw [← hbit]; simpa using hf⟩⟩⟩

private theorem whole_fine [HmacSha1] [AesKw] (kck kek : Option (Arr 16)) (buf : Bytes) (temp : Nat)
    (akm : IEEE80211AkmType) (with_fcs : Bool) :
    ∃ v r, buf = v ++ r ∧ (v = if with_fcs then buf.take (buf.length - 4) else buf) ∧
      Fine kek akm v r (InPlace.deserializeEapolDataFrame kck kek temp akm with_fcs buf)
        (deserializeEapolDataFrame kck kek buf temp akm with_fcs) := by
  cases with_fcs
  · refine ⟨buf, [], by simp, rfl, ?_⟩
    have := deserialize_fine kck kek buf [] temp akm
    simpa [InPlace.deserializeEapolDataFrame, deserializeEapolDataFrame] using this
  · refine ⟨buf.take (buf.length - 4), buf.drop (buf.length - 4), by simp, rfl, ?_⟩
    simp only [InPlace.deserializeEapolDataFrame, deserializeEapolDataFrame, if_true]
    by_cases h4 : 4 ≤ buf.length
    · rw [Res.sub, if_pos h4]
      have := deserialize_fine kck kek (buf.take (buf.length - 4)) (buf.drop (buf.length - 4)) temp akm
      rw [List.take_append_drop, List.length_take, Nat.min_eq_left (by omega)] at this
      exact this
    · rw [Res.sub, if_neg h4]
      exact ⟨rfl, fun hp => absurd rfl hp⟩

/-- Both transcriptions of the function return the same. -/
theorem c75_result [HmacSha1] [AesKw] (kck kek : Option (Arr 16)) (buf : Bytes) (temp : Nat)
    (akm : IEEE80211AkmType) (with_fcs : Bool) :
    (InPlace.deserializeEapolDataFrame kck kek temp akm with_fcs buf).1 =
      deserializeEapolDataFrame kck kek buf temp akm with_fcs := by
  obtain ⟨v, r, _, _, h⟩ := whole_fine kck kek buf temp akm with_fcs
  exact h.1

/-- An error leaves the buffer as it was, so the caller may try again with other keys.  The exception is the error
which says that the decrypted frame cannot be read.  (The full statement has no exception; see
`c75_failure_damages`.) -/
theorem c75_error_partial [HmacSha1] [AesKw] (kck kek : Option (Arr 16)) (buf : Bytes) (temp : Nat)
    (akm : IEEE80211AkmType) (with_fcs : Bool) (e : EapolSerdeError)
    (he : (InPlace.deserializeEapolDataFrame kck kek temp akm with_fcs buf).1 = .err e.code)
    (hne : e ≠ .KeyFrameDeserializationFailure) :
    (InPlace.deserializeEapolDataFrame kck kek temp akm with_fcs buf).2 = buf := by
  obtain ⟨v, r, hb, _, h1, h2⟩ := whole_fine kck kek buf temp akm with_fcs
  rw [he] at h1
  rw [← h1] at h2
  rcases h2 (by simp) with ⟨h, _⟩ | ⟨h, _⟩
  · rw [h, ← hb]
  · exfalso
    cases e <;> simp [Res.isOk, EapolSerdeError.code] at h hne

/-- Whatever is returned, the buffer is as it was, or the frame was flagged as encrypted and has been decrypted where
it lies: nothing but the two length fields and the key data has changed.  If a frame is returned, the second is the
case exactly when the flag is set. -/
theorem c75_changed [HmacSha1] [AesKw] (kck kek : Option (Arr 16)) (buf : Bytes) (temp : Nat)
    (akm : IEEE80211AkmType) (with_fcs : Bool)
    (hp : (InPlace.deserializeEapolDataFrame kck kek temp akm with_fcs buf).1 ≠ .panic) :
    ((InPlace.deserializeEapolDataFrame kck kek temp akm with_fcs buf).2 = buf ∧
      ((InPlace.deserializeEapolDataFrame kck kek temp akm with_fcs buf).1.isOk = true →
        ∃ hd n info, readDataHeader (if with_fcs then buf.take (buf.length - 4) else buf) = .ok (hd, n) ∧
          buf[hd.lengthInBytes + 13]? = some info ∧ info.getLsbD 4 = false)) ∨
    ∃ hd n m info, readDataHeader (if with_fcs then buf.take (buf.length - 4) else buf) = .ok (hd, n) ∧
      akm.keyMicLen = some m ∧ buf[hd.lengthInBytes + 13]? = some info ∧ info.getLsbD 4 = true ∧
      Decrypted kek (hd.lengthInBytes + 8) m (if with_fcs then buf.length - 4 else buf.length) buf
        (InPlace.deserializeEapolDataFrame kck kek temp akm with_fcs buf).2 := by
  obtain ⟨v, r, hb, hv, h1, h2⟩ := whole_fine kck kek buf temp akm with_fcs
  have hget : ∀ (i : Nat) (x : Byte), v[i]? = some x → buf[i]? = some x := by
    intro i x h
    rw [hb, List.getElem?_append_left (by
      rcases Nat.lt_or_ge i v.length with h' | h'
      · exact h'
      · rw [List.getElem?_eq_none h'] at h; cases h)]
    exact h
  rw [h1] at hp
  rcases h2 hp with ⟨h, h'⟩ | ⟨_, hd, n, m, info, g1, g2, g3, g4, g5⟩
  · refine .inl ⟨by rw [h, ← hb], fun hok => ?_⟩
    rw [h1] at hok
    obtain ⟨hd, n, info, g1, g2, g3⟩ := h' hok
    exact ⟨hd, n, info, hv ▸ g1, hget _ _ g2, g3⟩
  · refine .inr ⟨hd, n, m, info, hv ▸ g1, g2, hget _ _ g3, g4, ?_⟩
    rw [← hb] at g5
    have : v.length = if with_fcs then buf.length - 4 else buf.length := by
      rw [hv]; cases with_fcs <;> simp
    rw [← this]
    exact g5

/-! ## Serialising -/

omit [ScrollRule] in
private theorem see_bind {α β : Type} (f : Bytes → Res α) (g : α → InPlace β) (b : Bytes) :
    (InPlace.see f >>= g) b = match f b with
      | .ok a => g a b
      | .err e => (.err e, b)
      | .panic => (.panic, b) := by
  show (match (f b, b) with | (.ok a, b') => g a b' | (.err e, b') => (.err e, b') | (.panic, b') => (.panic, b')) = _
  cases f b <;> rfl

omit [ScrollRule] in
private theorem change_bind {β : Type} (f : Bytes → Res Bytes) (g : Unit → InPlace β) (b : Bytes) :
    (InPlace.change f >>= g) b = match f b with
      | .ok b' => g () b'
      | .err e => (.err e, b)
      | .panic => (.panic, b) := by
  simp only [Bind.bind, InPlace.change]
  cases f b <;> rfl

/-- The value and the buffer together, as the model without errors' buffers has them. -/
private def both (x : Res Nat × Bytes) : Res (Bytes × Nat) := x.1.map fun n => (x.2, n)

omit [ScrollRule] in
private theorem see_both {α : Type} (f : Bytes → Res α) (g : α → InPlace Nat) (b : Bytes) :
    both ((InPlace.see f >>= g) b) = f b >>= fun a => both (g a b) := by
  rw [see_bind]
  cases f b <;> rfl

omit [ScrollRule] in
private theorem change_both (f : Bytes → Res Bytes) (g : Unit → InPlace Nat) (b : Bytes) :
    both ((InPlace.change f >>= g) b) = f b >>= fun b' => both (g () b') := by
  rw [change_bind]
  cases f b <;> rfl

omit [ScrollRule] in
private theorem bind_both (x : InPlace Nat) (g : Nat → InPlace Nat) (b : Bytes) :
    both ((x >>= g) b) = both (x b) >>= fun p => both (g p.2 p.1) := by
  simp only [Bind.bind]
  generalize x b = z
  obtain ⟨x1, x2⟩ := z
  cases x1 <;> rfl

private theorem wrap_both [AesKw] (kek : Option (Arr 16)) (b : Bytes) (temp written kl ls ks ml fs : Nat) :
    both (InPlace.wrapKeyData kek temp written kl ls ks ml fs b) = wrapKeyData kek b temp written kl ls ks ml fs := by
  unfold InPlace.wrapKeyData wrapKeyData
  dsimp only
  simp only [see_both, change_both, Res.ok_bind]
  by_cases h1 : b.length < ks
  · rw [if_pos h1, if_pos h1]; rfl
  rw [if_neg h1, if_neg h1]
  by_cases h2 : b.length < ks + paddedKeyDataLength kl
  · rw [if_pos h2, if_pos h2]; rfl
  rw [if_neg h2, if_neg h2]
  simp only [Res.ok_bind]
  cases padInBuffer b ks kl (paddedKeyDataLength kl) with
  | err e => rfl
  | panic => rfl
  | ok b =>
  simp only [Res.ok_bind]
  cases slice b ks (paddedKeyDataLength kl) with
  | err e => rfl
  | panic => rfl
  | ok d =>
  simp only [Res.ok_bind]
  cases kek with
  | none => rfl
  | some k =>
  simp only [Res.ofOption_some, Res.ok_bind]
  by_cases h3 : temp < paddedKeyDataLength kl + 8
  · rw [if_pos h3, if_pos h3]; rfl
  rw [if_neg h3, if_neg h3]
  by_cases h4 : paddedKeyDataLength kl % 8 ≠ 0
  · rw [if_pos h4, if_pos h4]; rfl
  rw [if_neg h4, if_neg h4]
  by_cases h5 : b.length < ks + (paddedKeyDataLength kl + 8)
  · rw [if_pos h5, if_pos h5]; rfl
  rw [if_neg h5, if_neg h5]
  simp only [Res.ok_bind]
  cases copyInto b ks (AesKw.wrap k d) with
  | err e => rfl
  | panic => rfl
  | ok b =>
  simp only [Res.ok_bind]
  cases Res.sub (paddedKeyDataLength kl + 8) kl <;> rfl

/-- Both transcriptions of serialising agree: the same error, or the same number of bytes and the same buffer. -/
theorem c75_serialise_result [Crc32] [HmacSha1] [AesKw] (kck kek : Option (Arr 16)) (f : EapolDataFrame Obj)
    (temp : Nat) (buf : Bytes) :
    serializeEapolDataFrame kck kek f buf temp =
      (InPlace.serializeEapolDataFrame kck kek f temp buf).1.map fun n =>
        (((InPlace.serializeEapolDataFrame kck kek f temp buf).2).getD [], n) := by
  unfold serializeEapolDataFrame InPlace.serializeEapolDataFrame
  split
  · rfl
  cases hm : f.eapolMicRange with
  | none => rfl
  | some mr =>
  cases hp : f.payload with
  | none => rfl
  | some snap =>
  cases hl : f.eapolKeyDataLengthRange with
  | none => rfl
  | some lr =>
  cases hk : f.eapolKeyDataRange with
  | none => rfl
  | some ks =>
  obtain ⟨ms, me⟩ := mr
  obtain ⟨ls, le⟩ := lr
  simp only [Res.ofOption_some, Res.ok_bind]
  cases pwrite (writeDataFrame f.obj false) 0 buf with
  | err e => rfl
  | panic => rfl
  | ok p =>
  obtain ⟨b, written⟩ := p
  simp only [Res.mapErr, Res.ok_bind, Option.getD_some]
  show _ = both (InPlace.protect _ _ _ _ _ _ _ _ _ _ _ _ b)
  unfold InPlace.protect
  simp only [see_both]
  cases slice b ls (le - ls) with
  | err e => rfl
  | panic => rfl
  | ok lb =>
  simp only [Res.ok_bind]
  cases Res.unwrap (pread (readBE 16) 0 lb) with
  | err e => rfl
  | panic => rfl
  | ok kl =>
  simp only [Res.ok_bind]
  rw [bind_both]
  simp only [change_both]
  unfold wrapStep
  by_cases hc : kl.toNat ≠ 0 ∧ snap.payload.key_information.encrypted_key_data = true
  · rw [if_pos hc, if_pos hc, wrap_both]
    rfl
  · rw [if_neg hc, if_neg hc]
    rfl

/-- Violation: serialising a frame whose key data is to be encrypted, without the key, is refused; but the frame with
its key data in the clear has been written to the buffer by then. -/
theorem c75_missing_key_leaks [Crc32] [HmacSha1] [AesKw] (kck : Option (Arr 16)) (h : DataFrameHeader)
    (s : SnapLlcFrame (EapolKeyFrame Obj)) (hv : ValidData h) (data : Bytes) (need : Nat)
    (hd : Emits s.payload.key_data.write data need) (hne : data ≠ [])
    (hf : s.payload.key_information.encrypted_key_data = true)
    (buf : Bytes) (temp : Nat) (ht : 24 ≤ temp) (hl : data.length < 65536)
    (hb : h.lengthInBytes + 91 + s.payload.key_mic.length + max (max need slack) (padKeyData data).length ≤ buf.length) :
    ∃ back, InPlace.serializeEapolDataFrame kck none ⟨h, some s⟩ temp buf =
      (.err EapolSerdeError.MissingKey.code, some (eapolPrefix h s.oui s.ether_type ++
        (eapolWire 2 s.payload (Arr.zero 8).val data ++ back))) := by
  have hsl := slack_le
  have hle := hd.le
  have hpl := padKeyData_length data
  have hpe : paddedKeyDataLength data.length = (padKeyData data).length := by
    rw [hpl]
    unfold paddedKeyDataLength
    split
    · omega
    · split <;> omega
  generalize hA : eapolPrefix h s.oui s.ether_type = A
  have hAl : A.length = h.lengthInBytes + 8 := by rw [← hA, eapolPrefix_length]
  generalize hF : eapolFields s.payload (Arr.zero 8).val = F
  have hFl : F.length = 77 := by rw [← hF]; simp [eapolFields]
  have hfr : dataFrameWire h (snapWire s.oui s.ether_type (eapolWire 2 s.payload (Arr.zero 8).val data)) =
      A ++ eapolWire 2 s.payload (Arr.zero 8).val data := by
    rw [← hA]; simp [dataFrameWire, eapolPrefix, snapWire]
  have hw := (c38_write h s hv data need hd false).pwrite0.ok buf (by
    have h27 := c27_length h
    rw [hfr]
    simp [eapolWire, hF, hFl, hAl]
    omega)
  rw [withFcs, if_neg (by decide), hfr] at hw
  unfold InPlace.serializeEapolDataFrame
  rw [if_neg (by omega)]
  simp only [EapolDataFrame.eapolMicRange, EapolDataFrame.eapolKeyDataLengthRange,
    EapolDataFrame.eapolKeyDataRange]
  rw [hw]
  dsimp only
  generalize hW : eapolWire 2 s.payload (Arr.zero 8).val data = W at *
  have hWp : W = 2 :: 3 :: (toBE (BitVec.ofNat 16 (79 + s.payload.key_mic.length + data.length)) ++
      (F ++ (s.payload.key_mic ++ (toBE (BitVec.ofNat 16 data.length) ++ data)))) := by
    rw [← hW, ← hF]; rfl
  generalize hM : s.payload.key_mic = M at *
  have hWl : W.length = 83 + M.length + data.length := by
    rw [hWp]; simp [hFl]; omega
  have hlen : (A ++ W).length = h.lengthInBytes + 91 + M.length + data.length := by
    rw [List.length_append, hAl, hWl]; omega
  generalize hR : buf.drop (A ++ W).length = R
  have hRl : (A ++ W).length + R.length = buf.length := by
    rw [← hR, List.length_drop]; omega
  generalize hks : h.lengthInBytes + 8 + 1 + 1 + 2 + 1 + 2 + 2 + 8 + 32 + 16 + 8 + 8 + M.length = ls
  have hs : slice (A ++ W ++ R) ls (ls + 2 - ls) = .ok (toBE (BitVec.ofNat 16 data.length)) := by
    have := slice_mid (A ++ (2 :: 3 :: (toBE (BitVec.ofNat 16 (79 + M.length + data.length)) ++ (F ++ M))))
      (toBE (BitVec.ofNat 16 data.length)) (data ++ R) (p := ls) (n := ls + 2 - ls)
      (by simp [hAl, hFl]; omega) (by simp)
    rw [hWp]
    simpa only [List.append_assoc, List.cons_append] using this
  unfold InPlace.protect
  rw [see_bind, hs]
  dsimp only
  have hp := preadBE_mid [] [] (BitVec.ofNat 16 data.length) (p := 0) rfl
  simp only [List.nil_append, List.append_nil] at hp
  rw [see_bind, hp, Res.unwrap_ok]
  dsimp only
  have htn : (BitVec.ofNat 16 data.length).toNat = data.length := by
    rw [BitVec.toNat_ofNat, Nat.mod_eq_of_lt (by omega)]
  rw [htn, if_pos ⟨fun e => hne (List.length_eq_zero_iff.1 e), hf⟩]
  have hbl : (A ++ W ++ R).length = buf.length := by rw [List.length_append]; omega
  obtain ⟨back, hpad⟩ : ∃ back, padInBuffer (A ++ W ++ R) (ls + 2) data.length (padKeyData data).length =
      .ok (A ++ (W ++ back)) ∧ back.length = R.length := by
    unfold padInBuffer
    split
    · refine ⟨(0xdd :: List.replicate ((padKeyData data).length - (data.length + 1)) 0) ++
        R.drop ((padKeyData data).length - data.length), ?_, ?_⟩
      · have := copyInto_mid (A ++ W) (R.take ((padKeyData data).length - data.length))
          (0xdd :: List.replicate ((padKeyData data).length - (data.length + 1)) 0)
          (R.drop ((padKeyData data).length - data.length)) (p := ls + 2 + data.length) (by omega)
          (by simp; omega)
        rw [List.take_append_drop] at this
        rw [this, List.append_assoc]
      · simp; omega
    · exact ⟨R, by rw [List.append_assoc], rfl⟩
  refine ⟨back, ?_⟩
  have hwrap : InPlace.wrapKeyData none temp (A ++ W).length data.length ls (ls + 2) M.length (h.lengthInBytes + 8)
      (A ++ W ++ R) = (.err EapolSerdeError.MissingKey.code, A ++ (W ++ back)) := by
    unfold InPlace.wrapKeyData
    rw [see_bind, hpe, if_neg (by omega), if_neg (by omega)]
    dsimp only
    rw [change_bind, hpad.1]
    dsimp only
    rw [see_bind, slice, if_pos (by simp only [List.length_append] at *; omega)]
    dsimp only
    rw [see_bind]
    rfl
  generalize InPlace.wrapKeyData none temp (A ++ W).length data.length ls (ls + 2) M.length (h.lengthInBytes + 8) = g at *
  simp only [Bind.bind, hwrap]

/-! ## Concrete cases

With the toy HMAC and key wrap of C39 and keys of zeros. -/

/-- A frame with MIC and encrypted key data, of packet type `t` (3 is an EAPOL-Key frame). -/
def toyProtected (t : Byte) : Bytes :=
  let tail := [0, 24] ++ List.replicate 16 5 ++ List.replicate 8 0xa6
  let frame := fun mic => (toyFrame 0x11 mic tail).set 33 t
  frame (List.replicate 16 (((frame (List.replicate 16 0)).drop 32).foldl (· ^^^ ·) 0))

omit [ScrollRule] in
/-- Violations.  A frame which turns out unreadable after decryption is not left as it was: tried again with the same
keys it fails for another reason.  And a frame which is accepted stays flagged as encrypted though it is decrypted, so
that the same call on the same buffer refuses it the second time. -/
theorem c75_failure_damages (s : Bool) :
    letI : ScrollRule := ⟨s⟩
    letI := toyHmac
    letI := toyKw
    let k : Option (Arr 16) := some (Arr.zero 16)
    let run := fun b => InPlace.deserializeEapolDataFrame k k 100 .Psk false b
    (run (toyProtected 4)).1 = .err EapolSerdeError.KeyFrameDeserializationFailure.code ∧
    (run (toyProtected 4)).2 ≠ toyProtected 4 ∧
    (run (run (toyProtected 4)).2).1 = .err EapolSerdeError.InvalidMic.code ∧
    (run (toyProtected 3)).1.isOk = true ∧
    (run (run (toyProtected 3)).2).1 = .err EapolSerdeError.InvalidMic.code := by
  cases s <;> decide +kernel

omit [ScrollRule] in
/-- The frame is refused for its MIC under another key, and then accepted from the same buffer with the right one; the
check sequence and the last eight bytes of the encrypted key data are still there. -/
example (s : Bool) :
    letI : ScrollRule := ⟨s⟩
    letI := toyHmac
    letI := toyKw
    let k : Option (Arr 16) := some (Arr.zero 16)
    let run := fun k' b => InPlace.deserializeEapolDataFrame k' k 100 .Psk true b
    let b := toyProtected 3 ++ [1, 2, 3, 4]
    run (some ⟨1 :: List.replicate 15 0, by simp⟩) b = (.err EapolSerdeError.InvalidMic.code, b) ∧
    (run k b).1.isOk = true ∧
    (run k b).2.drop 131 = List.replicate 16 5 ++ List.replicate 8 0xa6 ++ [1, 2, 3, 4] := by
  cases s <;> decide +kernel

/-- The leak of `c75_missing_key_leaks`, concretely. -/
example (s : Bool) :
    letI : ScrollRule := ⟨s⟩
    letI : Crc32 := ⟨fun _ => 0⟩
    letI := toyHmac
    letI := toyKw
    let r := InPlace.serializeEapolDataFrame none none (toyInput 0x1002 (List.replicate 16 0) [1, 2, 3, 4]) 100
        (List.replicate 300 7)
    r.1 = .err EapolSerdeError.MissingKey.code ∧
      (r.2.map fun b => (b.drop 131).take 6) = some [1, 2, 3, 4, 0xdd, 0] := by
  cases s <;> decide +kernel

end Verif
