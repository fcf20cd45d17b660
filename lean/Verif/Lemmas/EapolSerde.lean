import Verif.Lemmas.Buffer
/-!
# Lemmas about the deserialisation of protected EAPOL frames
-/
namespace Verif

theorem Res.bind_ne_panic {α β : Type} {x : Res α} {f : α → Res β} (hx : x ≠ .panic)
    (hf : ∀ a, x = .ok a → f a ≠ .panic) : (x >>= f) ≠ .panic := by
  cases x with
  | ok a => exact hf a rfl
  | err e => intro h; cases h
  | panic => exact absurd rfl hx

theorem Res.bind_eq_ok {α β : Type} {x : Res α} {f : α → Res β} {b : β} (h : (x >>= f) = .ok b) :
    ∃ a, x = .ok a ∧ f a = .ok b := by
  cases x with
  | ok a => exact ⟨a, rfl, h⟩
  | err e => cases h
  | panic => cases h

theorem Res.mapErr_ok {α : Type} {e : EapolSerdeError} {x : Res α} {a : α} (h : x.mapErr e = .ok a) : x = .ok a := by
  cases x with
  | ok b => simpa [Res.mapErr] using h
  | err e => cases h
  | panic => cases h

theorem Res.mapErr_ne_panic {α : Type} {e : EapolSerdeError} {x : Res α} (h : x ≠ .panic) :
    x.mapErr e ≠ .panic := by
  cases x with
  | ok b => intro hh; cases hh
  | err e => intro hh; cases hh
  | panic => exact absurd rfl h

theorem Res.ofOption_ok {α : Type} {e : Err} {x : Option α} {a : α} (h : Res.ofOption e x = .ok a) : x = some a := by
  cases x with
  | none => cases h
  | some b => simpa using h

theorem Res.ofOption_ne_panic {α : Type} {e : Err} {x : Option α} : Res.ofOption e x ≠ .panic := by
  cases x <;> intro h <;> cases h

theorem Res.sub_ok {a b n : Nat} (h : Res.sub a b = .ok n) : b ≤ a ∧ n = a - b := by
  unfold Res.sub at h
  split at h
  · cases h; exact ⟨by assumption, rfl⟩
  · cases h

theorem slice_ok {b : Bytes} {p n : Nat} {r : Bytes} (h : slice b p n = .ok r) :
    p + n ≤ b.length ∧ r = (b.drop p).take n ∨ (n = 0 ∧ p ≤ b.length ∧ r = []) := by
  unfold slice at h
  split at h
  · cases h; left; exact ⟨by omega, rfl⟩
  · cases h

theorem getFrom_ok {b : Bytes} {p : Nat} {r : Bytes} (h : getFrom b p = .ok r) : p ≤ b.length ∧ r = b.drop p := by
  unfold getFrom at h
  split at h
  · cases h; exact ⟨by assumption, rfl⟩
  · cases h

theorem getFrom_ne_panic {b : Bytes} {p : Nat} : getFrom b p ≠ .panic := by
  unfold getFrom; split <;> intro h <;> cases h

theorem getRange_ok {b : Bytes} {p n : Nat} {r : Bytes} (h : getRange b p n = .ok r) :
    p + n ≤ b.length ∧ r = (b.drop p).take n := by
  unfold getRange at h
  split at h
  · cases h; exact ⟨by assumption, rfl⟩
  · cases h

theorem getRange_ne_panic {b : Bytes} {p n : Nat} : getRange b p n ≠ .panic := by
  unfold getRange; split <;> intro h <;> cases h

variable [ScrollRule]

theorem pread_ne_panic {α : Type} {r : Reader α} (hr : SafeReader r) (p : Nat) (b : Bytes) :
    pread r p b ≠ .panic := by
  have := hr.ne_panic (b.drop p)
  simp only [pread, Rd.gread]
  split
  · intro h; cases h
  · cases h : r (b.drop p) with
    | ok x => intro hh; cases hh
    | err e => intro hh; cases hh
    | panic => exact absurd h this

theorem pread_ok {α : Type} {r : Reader α} {p : Nat} {b : Bytes} {a : α} (h : pread r p b = .ok a) :
    p ≤ b.length ∧ ∃ n, r (b.drop p) = .ok (a, n) := by
  simp only [pread, Rd.gread] at h
  split at h
  · cases h
  · rename_i hb
    rw [badOff_eq] at hb
    refine ⟨by have := slack_le; simp at hb; omega, ?_⟩
    cases hr : r (b.drop p) with
    | ok x =>
      obtain ⟨y, n⟩ := x
      rw [hr] at h
      simp only [Res.map] at h
      cases h
      exact ⟨n, rfl⟩
    | err e => rw [hr] at h; cases h
    | panic => rw [hr] at h; cases h

/-- A big-endian 16-bit number read at `p` is made of two bytes. -/
theorem preadBE_ok {p : Nat} {b : Bytes} {v : BitVec 16} (h : pread (readBE 16) p b = .ok v) :
    ∃ x hi lo z, b = x ++ (hi :: lo :: z) ∧ x.length = p ∧ v = hi ++ lo := by
  obtain ⟨hp, n, hr⟩ := pread_ok h
  unfold readBE at hr
  split at hr
  · rename_i hl
    rw [List.length_drop] at hl
    have hb := List.take_append_drop p b
    generalize hd : b.drop p = d at *
    match d with
    | [] => simp at hr; have := congrArg List.length hd; simp at this; omega
    | [_] => have := congrArg List.length hd; simp at this; omega
    | hi :: lo :: z =>
      simp only [Res.ok.injEq, Prod.mk.injEq] at hr
      refine ⟨b.take p, hi, lo, z, hb.symm, by simp; omega, ?_⟩
      rw [← hr.1]
      apply BitVec.eq_of_toNat_eq
      have h1 := hi.isLt
      have h2 := lo.isLt
      rw [BitVec.toNat_append, ← Nat.shiftLeft_add_eq_or_of_lt h2, Nat.shiftLeft_eq]
      simp [fromBE, fromLE, leNat]
      omega
  · cases hr

/-- The decryption step on a buffer in pieces: only the two length fields and what follows the second of them
changes. -/
theorem unwrap_run_exact [AesKw] (k : Arr 16) (a c b d kd tail : Bytes) (temp start m : Nat) (ha : a.length = start + 2)
    (hc : c.length = 2) (hb : b.length = 77 + m) (hd : pread (readBE 16) 0 d = .ok (BitVec.ofNat 16 kd.length))
    (hdl : d.length = 2) (hkl : kd.length < 65536) (h8 : 8 ≤ kd.length) (ht : kd.length - 8 ≤ temp)
    (hm8 : kd.length % 8 = 0) (plain : Bytes) (hu : AesKw.unwrap k kd = some plain) :
    unwrapKeyData (some k) (a ++ (c ++ (b ++ (d ++ (kd ++ tail))))) temp start m =
      .ok (a ++ (toBE (BitVec.ofNat 16 (start + 83 + m + kd.length + tail.length - 8 - start - 4)) ++
        (b ++ (toBE (BitVec.ofNat 16 plain.length) ++ (plain ++ (kd.drop plain.length ++ tail).take tail.length))))) := by
  have hsl := slack_le
  have hul := AesKw.unwrap_length k kd plain hu
  obtain ⟨x, hi, lo, z, hdd, hx, hv⟩ := preadBE_ok hd
  have hx0 : x = [] := List.eq_nil_of_length_eq_zero hx
  subst hx0
  have hdv : d = toBE (BitVec.ofNat 16 kd.length) := by
    have h1 := toBE_fromBE (w := 16) rfl d (by rw [hdl])
    obtain ⟨_, n, hr⟩ := pread_ok hd
    unfold readBE at hr
    rw [if_pos (by simp [hdl])] at hr
    simp only [List.drop_zero, Res.ok.injEq, Prod.mk.injEq] at hr
    rw [List.take_of_length_le (by omega)] at hr
    rw [← hr.1, h1]
  subst hdv
  unfold unwrapKeyData
  dsimp only
  have hp : pread (readBE 16) (start + 81 + m) (a ++ (c ++ (b ++ (toBE (BitVec.ofNat 16 kd.length) ++
      (kd ++ tail))))) = .ok (BitVec.ofNat 16 kd.length) := by
    have := preadBE_mid (a ++ (c ++ b)) (kd ++ tail) (BitVec.ofNat 16 kd.length)
      (p := start + 81 + m) (by simp [ha, hc, hb]; omega)
    simpa only [List.append_assoc] using this
  have htn : (BitVec.ofNat 16 kd.length).toNat = kd.length := by
    rw [BitVec.toNat_ofNat, Nat.mod_eq_of_lt (by omega)]
  rw [hp]
  simp only [Res.mapErr, Res.ok_bind, htn]
  have hs : slice (a ++ (c ++ (b ++ (toBE (BitVec.ofNat 16 kd.length) ++ (kd ++ tail)))))
      (start + 81 + m + 2) kd.length = .ok kd := by
    have := slice_mid (a ++ (c ++ (b ++ toBE (BitVec.ofNat 16 kd.length)))) kd tail
      (p := start + 81 + m + 2) (n := kd.length) (by simp [ha, hc, hb]; omega) rfl
    simpa only [List.append_assoc] using this
  rw [hs]
  simp only [Res.ofOption_some, Res.ok_bind]
  rw [Res.sub, if_pos (by omega)]
  simp only [Res.ok_bind]
  rw [if_neg (by omega), if_neg (by omega), hu]
  simp only [Res.ofOption_some, Res.ok_bind]
  rw [show kd.length - 8 = plain.length by omega]
  generalize hD : toBE (BitVec.ofNat 16 kd.length) = D at *
  have h1 : pwrite (writeBE (BitVec.ofNat 16 plain.length)) (start + 81 + m)
      (a ++ (c ++ (b ++ (D ++ (kd ++ tail))))) =
      .ok (a ++ (c ++ (b ++ (toBE (BitVec.ofNat 16 plain.length) ++ (kd ++ tail)))), 2) := by
    have := pwriteBE_mid (a ++ (c ++ b)) D (kd ++ tail) (BitVec.ofNat 16 plain.length)
      (p := start + 81 + m) (by simp [ha, hc, hb]; omega) hdl
    simpa only [List.append_assoc] using this
  rw [h1]
  simp only [Res.unwrap_ok, Res.ok_bind]
  generalize hD2 : toBE (BitVec.ofNat 16 plain.length) = D2
  have hD2l : D2.length = 2 := by rw [← hD2]; simp
  have h2 : pwrite (writeBytes plain) (start + 81 + m + 2) (a ++ (c ++ (b ++ (D2 ++ (kd ++ tail))))) =
      .ok (a ++ (c ++ (b ++ (D2 ++ (plain ++ (kd.drop plain.length ++ tail))))), plain.length) := by
    have := pwriteBytes_mid (a ++ (c ++ (b ++ D2))) (kd.take plain.length) plain (kd.drop plain.length ++ tail)
      (p := start + 81 + m + 2) (by simp [ha, hc, hb, hD2l]; omega) (by simp; omega) (by simp; omega)
    rw [← List.append_assoc (kd.take _), List.take_append_drop, List.length_take, Nat.min_eq_left (by omega)] at this
    simpa only [List.append_assoc] using this
  rw [h2]
  simp only [Res.unwrap_ok, Res.ok_bind]
  have hbl : (a ++ (c ++ (b ++ (D2 ++ (plain ++ (kd.drop plain.length ++ tail)))))).length =
      start + 83 + m + kd.length + tail.length := by
    simp [ha, hc, hb, hD2l]; omega
  rw [hbl, Res.sub, if_pos (by omega)]
  simp only [Res.ok_bind]
  have htk : (a ++ (c ++ (b ++ (D2 ++ (plain ++ (kd.drop plain.length ++ tail)))))).take
      (start + 83 + m + kd.length + tail.length - 8) =
      a ++ (c ++ (b ++ (D2 ++ (plain ++ (kd.drop plain.length ++ tail))).take (kd.length + tail.length + 2 - 8))) := by
    have := List.take_append (i := start + 83 + m + kd.length + tail.length - 8) (l₁ := a ++ (c ++ b))
      (l₂ := D2 ++ (plain ++ (kd.drop plain.length ++ tail)))
    rw [List.take_of_length_le (l := a ++ (c ++ b)) (by simp [ha, hc, hb]; omega)] at this
    simp only [List.append_assoc, List.length_append, ha, hc, hb] at this
    rw [this, show start + 83 + m + kd.length + tail.length - 8 - (start + 2 + (2 + (77 + m))) =
      kd.length + tail.length + 2 - 8 by omega]
  rw [htk, Res.sub, if_pos (by omega)]
  simp only [Res.ok_bind]
  rw [Res.sub, if_pos (by omega)]
  simp only [Res.ok_bind]
  rw [pwriteBE_mid a c _ _ ha.symm hc]
  have hlast : (D2 ++ (plain ++ (kd.drop plain.length ++ tail))).take (kd.length + tail.length + 2 - 8) =
      D2 ++ (plain ++ (kd.drop plain.length ++ tail).take tail.length) := by
    rw [List.take_append, List.take_of_length_le (by omega), List.take_append, List.take_of_length_le (by omega),
      show kd.length + tail.length + 2 - 8 - D2.length - plain.length = tail.length by omega]
  rw [hlast]
  rfl

/-- The same without the new body length and what is left behind the key data. -/
theorem unwrap_run [AesKw] (k : Arr 16) (a c b d kd tail : Bytes) (temp start m : Nat) (ha : a.length = start + 2)
    (hc : c.length = 2) (hb : b.length = 77 + m) (hd : pread (readBE 16) 0 d = .ok (BitVec.ofNat 16 kd.length))
    (hdl : d.length = 2) (hkl : kd.length < 65536) (h8 : 8 ≤ kd.length) (ht : kd.length - 8 ≤ temp)
    (hm8 : kd.length % 8 = 0) (plain : Bytes) (hu : AesKw.unwrap k kd = some plain) :
    ∃ c' t, c'.length = 2 ∧ unwrapKeyData (some k) (a ++ (c ++ (b ++ (d ++ (kd ++ tail))))) temp start m =
      .ok (a ++ (c' ++ (b ++ (toBE (BitVec.ofNat 16 plain.length) ++ (plain ++ t))))) :=
  ⟨_, _, by simp, unwrap_run_exact k a c b d kd tail temp start m ha hc hb hd hdl hkl h8 ht hm8 plain hu⟩

omit [ScrollRule] in
theorem split_at_length (l : Bytes) (n : Nat) (h : n ≤ l.length) : ∃ x y, l = x ++ y ∧ x.length = n :=
  ⟨l.take n, l.drop n, (List.take_append_drop n l).symm, by simp [h]⟩

/-- A buffer from which a key data length can be read and which holds that many bytes, in pieces. -/
theorem unwrap_pieces {buf : Bytes} {start m : Nat} {v : BitVec 16}
    (hp : pread (readBE 16) (start + 81 + m) buf = .ok v) (hl : start + 83 + m + v.toNat ≤ buf.length) :
    ∃ a c b d kd tail, buf = a ++ (c ++ (b ++ (d ++ (kd ++ tail)))) ∧ a.length = start + 2 ∧ c.length = 2 ∧
      b.length = 77 + m ∧ d.length = 2 ∧ kd.length = v.toNat ∧
      pread (readBE 16) 0 d = .ok (BitVec.ofNat 16 kd.length) := by
  have hsl := slack_le
  obtain ⟨x, hi, lo, z, rfl, hx, hv⟩ := preadBE_ok hp
  obtain ⟨a, y, rfl, ha⟩ := split_at_length x (start + 2) (by omega)
  obtain ⟨c, b, rfl, hc⟩ := split_at_length y 2 (by simp at hx; omega)
  obtain ⟨kd, tail, rfl, hk⟩ := split_at_length z v.toNat (by simp at hl hx; omega)
  refine ⟨a, c, b, [hi, lo], kd, tail, by simp, ha, hc, by simp at hx; omega, rfl, hk, ?_⟩
  rw [hk, BitVec.ofNat_toNat, BitVec.setWidth_eq]
  obtain ⟨_, n, hr⟩ := pread_ok hp
  rw [← hx, List.drop_left] at hr
  have h1 : fromBE 16 [hi, lo] = v := by
    have hr2 : (Res.ok (fromBE 16 [hi, lo], 2) : Res (BitVec 16 × Nat)) = .ok (v, n) := by
      simpa [readBE] using hr
    cases hr2
    rfl
  have h2 := toBE_fromBE (w := 16) rfl [hi, lo] rfl
  rw [← h2, h1]
  have := preadBE_mid [] [] v (p := 0) rfl
  simpa using this

/-- What the decryption step keeps: the two bytes of the EAPOL frame before the length and the 77 bytes and
the MIC after it.  What it replaces: the key data with its length. -/
theorem unwrap_ok [AesKw] {kek : Option (Arr 16)} {buf buf' : Bytes} {temp start m : Nat}
    (h : unwrapKeyData kek buf temp start m = .ok buf') :
    ∃ a c b k kd tail c' plain t, buf = a ++ (c ++ (b ++ (toBE (BitVec.ofNat 16 kd.length) ++ (kd ++ tail)))) ∧
      a.length = start + 2 ∧ c.length = 2 ∧ b.length = 77 + m ∧ c'.length = 2 ∧ kd.length < 65536 ∧
      kek = some k ∧ AesKw.unwrap k kd = some plain ∧
      buf' = a ++ (c' ++ (b ++ (toBE (BitVec.ofNat 16 plain.length) ++ (plain ++ t)))) := by
  have h0 := h
  unfold unwrapKeyData at h
  dsimp only at h
  obtain ⟨v, hv, h⟩ := Res.bind_eq_ok h
  obtain ⟨kd0, hkd, h⟩ := Res.bind_eq_ok h
  obtain ⟨k, hk, h⟩ := Res.bind_eq_ok h
  obtain ⟨pl, hpl, h⟩ := Res.bind_eq_ok h
  split at h
  · cases h
  · rename_i ht
    split at h
    · cases h
    · rename_i h8
      obtain ⟨plain, hplain, h⟩ := Res.bind_eq_ok h
      have hv := Res.mapErr_ok hv
      have hk := Res.ofOption_ok hk
      have hplain := Res.ofOption_ok hplain
      obtain ⟨hs, hpl⟩ := Res.sub_ok hpl
      have hlen : start + 83 + m + v.toNat ≤ buf.length ∧ kd0 = (buf.drop (start + 81 + m + 2)).take v.toNat := by
        unfold slice at hkd
        split at hkd
        · cases hkd; exact ⟨by omega, rfl⟩
        · cases hkd
      obtain ⟨a, c, b, d, kd, tail, rfl, ha, hc, hb, hd, hkl, hdp⟩ := unwrap_pieces hv hlen.1
      have hkd0 : kd0 = kd := by
        rw [hlen.2]
        have h1 : a ++ (c ++ (b ++ (d ++ (kd ++ tail)))) = (a ++ (c ++ (b ++ d))) ++ (kd ++ tail) := by simp
        have h2 : (a ++ (c ++ (b ++ d))).length = start + 81 + m + 2 := by simp [ha, hc, hb, hd]; omega
        rw [h1, ← h2, List.drop_left, ← hkl, List.take_left]
      subst hkd0 hk
      have hvl := v.isLt
      obtain ⟨c', t, hc', hr⟩ := unwrap_run k a c b d kd0 tail temp start m ha hc hb hdp hd (by omega) (by omega)
        (by omega) (by omega) plain hplain
      rw [hr] at h0
      cases h0
      have hdv : d = toBE (BitVec.ofNat 16 kd0.length) := by
        have h1 := toBE_fromBE (w := 16) rfl d (by rw [hd])
        obtain ⟨_, n, hr⟩ := pread_ok hdp
        unfold readBE at hr
        rw [if_pos (by simp [hd])] at hr
        simp only [List.drop_zero, Res.ok.injEq, Prod.mk.injEq] at hr
        rw [List.take_of_length_le (by omega)] at hr
        rw [← hr.1, h1]
      exact ⟨a, c, b, k, kd0, tail, c', plain, t, by rw [hdv], ha, hc, hb, hc', by omega, rfl, hplain, rfl⟩

/-- The decryption step does not panic if the key data is there, has eight bytes and the temporary buffer is
large enough. -/
theorem unwrap_ne_panic [AesKw] (kek : Option (Arr 16)) (buf : Bytes) (temp start m : Nat)
    (h : ∀ v, pread (readBE 16) (start + 81 + m) buf = .ok v →
      8 ≤ v.toNat ∧ start + 83 + m + v.toNat ≤ buf.length ∧ v.toNat - 8 ≤ temp) :
    unwrapKeyData kek buf temp start m ≠ .panic := by
  cases hv : pread (readBE 16) (start + 81 + m) buf with
  | panic => exact absurd hv (pread_ne_panic (readBE_fixed 16).safe _ _)
  | err e =>
    unfold unwrapKeyData
    dsimp only
    rw [hv]
    intro hh; cases hh
  | ok v =>
    obtain ⟨h8, hl, ht⟩ := h v hv
    obtain ⟨a, c, b, d, kd, tail, rfl, ha, hc, hb, hd, hkl, hdp⟩ := unwrap_pieces hv hl
    have hvl := v.isLt
    have hs : slice (a ++ (c ++ (b ++ (d ++ (kd ++ tail))))) (start + 81 + m + 2) v.toNat = .ok kd := by
      have := slice_mid (a ++ (c ++ (b ++ d))) kd tail
        (p := start + 81 + m + 2) (n := v.toNat) (by simp [ha, hc, hb, hd]; omega) hkl.symm
      simpa only [List.append_assoc] using this
    cases kek with
    | none =>
      unfold unwrapKeyData
      dsimp only
      rw [hv]
      simp only [Res.mapErr, Res.ok_bind]
      rw [hs]
      intro hh; cases hh
    | some k =>
      by_cases hm : v.toNat % 8 = 0
      · cases hu : AesKw.unwrap k kd with
        | some plain =>
          obtain ⟨c', d', hc', hr⟩ := unwrap_run k a c b d kd tail temp start m ha hc hb hdp hd (by omega) (by omega)
            (by omega) (by omega) plain hu
          rw [hr]
          intro hh; cases hh
        | none =>
          unfold unwrapKeyData
          dsimp only
          rw [hv]
          simp only [Res.mapErr, Res.ok_bind]
          rw [hs]
          simp only [Res.ofOption_some, Res.ok_bind]
          rw [Res.sub, if_pos (by omega)]
          simp only [Res.ok_bind]
          rw [if_neg (by omega), if_neg (by omega), hu]
          intro hh; cases hh
      · unfold unwrapKeyData
        dsimp only
        rw [hv]
        simp only [Res.mapErr, Res.ok_bind]
        rw [hs]
        simp only [Res.ofOption_some, Res.ok_bind]
        rw [Res.sub, if_pos (by omega)]
        simp only [Res.ok_bind]
        rw [if_neg (by omega), if_pos (by omega)]
        intro hh; cases hh

end Verif
