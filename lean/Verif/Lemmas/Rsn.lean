import Verif.Model.Elements.Rsn
import Verif.Spec.Basic
import Verif.Spec.Iter
import Verif.Lemmas.Elements
import Verif.Basic.Tactics
/-!
# Lemmas about the RSN selectors and element
-/
namespace Verif

theorem toLE32 (v : BitVec 32) : ∃ b0 b1 b2 b3 : Byte, toLE v = [b0, b1, b2, b3] ∧
    v = fromLE 32 [b0, b1, b2, b3] := by
  have h : (toLE v).length = 4 := by simp
  obtain ⟨b0, b1, b2, b3, e⟩ : ∃ b0 b1 b2 b3 : Byte, toLE v = [b0, b1, b2, b3] := by
    match hv : toLE v, h with
    | [b0, b1, b2, b3], _ => exact ⟨b0, b1, b2, b3, rfl⟩
  exact ⟨b0, b1, b2, b3, e, by rw [← e, fromLE_toLE rfl]⟩

theorem split_fromLE (b0 b1 b2 b3 : Byte) :
    splitCipherSuiteSelector (fromLE 32 [b0, b1, b2, b3]) = ([b0, b1, b2], b3) := by
  have : toLE (fromLE 32 [b0, b1, b2, b3]) = [b0, b1, b2, b3] := toLE_fromLE rfl _ rfl
  simp [splitCipherSuiteSelector, this]

theorem merge_split (v : BitVec 32) :
    mergeOuiAndSuiteType (splitCipherSuiteSelector v).1 (splitCipherSuiteSelector v).2 = v := by
  obtain ⟨b0, b1, b2, b3, _, rfl⟩ := toLE32 v
  rw [split_fromLE]; rfl

theorem split_merge (oui : Bytes) (t : Byte) (h : oui.length = 3) :
    splitCipherSuiteSelector (mergeOuiAndSuiteType oui t) = (oui, t) := by
  match oui, h with
  | [a, b, c], _ => exact split_fromLE a b c t

/-- Looking a split code up in the suite table is looking the code up in the code table. -/
theorem lookupSuite_eq {α : Type} (v : BitVec 32) (l : List (Bytes × Byte × α))
    (h : ∀ p ∈ l, p.1.length = 3) :
    lookupSuite (splitCipherSuiteSelector v).1 (splitCipherSuiteSelector v).2 l =
      lookupCode v (l.map fun p => (mergeOuiAndSuiteType p.1 p.2.1, p.2.2)) := by
  induction l with
  | nil => rfl
  | cons p l ih =>
    obtain ⟨o, t, a⟩ := p
    have ho : o.length = 3 := h (o, t, a) (by simp)
    simp only [lookupSuite, List.map_cons, lookupCode]
    have : (v = mergeOuiAndSuiteType o t) ↔
        ((splitCipherSuiteSelector v).1 = o ∧ (splitCipherSuiteSelector v).2 = t) := by
      constructor
      · rintro rfl
        rw [split_merge o t ho]; exact ⟨rfl, rfl⟩
      · rintro ⟨h1, h2⟩
        rw [← merge_split v, h1, h2]
    rw [ih fun p hp => h p (by simp [hp])]
    simp only [this]

theorem cipher_with_eq (v : BitVec 32) :
    IEEE80211CipherSuiteSelector.withCipherSuiteSelector v = .fromBits v := by
  have h := lookupSuite_eq v IEEE80211CipherSuiteSelector.suites (by decide)
  have ht : IEEE80211CipherSuiteSelector.suites.map
      (fun p => (mergeOuiAndSuiteType p.1 p.2.1, p.2.2)) = IEEE80211CipherSuiteSelector.table := by
    decide
  rw [ht] at h
  simp only [IEEE80211CipherSuiteSelector.withCipherSuiteSelector,
    IEEE80211CipherSuiteSelector.fromBits, h, merge_split]

theorem cipher_sel_eq (c : IEEE80211CipherSuiteSelector) : c.cipherSuiteSelector = c.intoBits := by
  cases c <;> first | rfl | decide

theorem akm_with_eq (v : BitVec 32) :
    IEEE80211AkmType.withCipherSuiteSelector v = .fromBits v := by
  have h := lookupSuite_eq v IEEE80211AkmType.suites (by decide)
  have ht : IEEE80211AkmType.suites.map
      (fun p => (mergeOuiAndSuiteType p.1 p.2.1, p.2.2)) = IEEE80211AkmType.table := by
    decide
  rw [ht] at h
  simp only [IEEE80211AkmType.withCipherSuiteSelector, IEEE80211AkmType.fromBits, h, merge_split]

theorem akm_sel_eq (c : IEEE80211AkmType) : c.cipherSuiteSelector = c.intoBits := by
  cases c <;> first | rfl | decide

/-- The suite type test on the wire bytes. -/
theorem ieee_type (b0 b1 b2 b3 : Byte) :
    getSuiteTypeIfOuiIsIeee (fromLE 32 [b0, b1, b2, b3]) =
      if b0 = 0x00 ∧ b1 = 0x0f ∧ b2 = 0xac then some b3 else none := by
  have h0 := b0.isLt; have h1 := b1.isLt; have h2 := b2.isLt; have h3 := b3.isLt
  have hv : (fromLE 32 [b0, b1, b2, b3]).toNat =
      b0.toNat + 256 * b1.toNat + 65536 * b2.toNat + 16777216 * b3.toNat := by
    simp only [fromLE, leNat, BitVec.toNat_ofNat]
    omega
  have hm : (fromLE 32 [b0, b1, b2, b3] &&& 0xffffff).toNat =
      (fromLE 32 [b0, b1, b2, b3]).toNat % 2 ^ 24 := by
    rw [BitVec.toNat_and]
    exact Nat.and_two_pow_sub_one_eq_mod _ 24
  have hs : ((fromLE 32 [b0, b1, b2, b3] >>> 24).truncate 8 : BitVec 8) = b3 := by
    apply BitVec.eq_of_toNat_eq
    simp only [BitVec.truncate, BitVec.toNat_setWidth, BitVec.toNat_ushiftRight, hv,
      Nat.shiftRight_eq_div_pow]
    omega
  have hc : (fromLE 32 [b0, b1, b2, b3] &&& 0xffffff = 0xac0f00) ↔
      (b0 = 0x00 ∧ b1 = 0x0f ∧ b2 = 0xac) := by
    simp only [← BitVec.toNat_inj, hm, hv]
    rw [show (0xac0f00 : BitVec 32).toNat = 0xac0f00 from rfl,
      show (0x00 : Byte).toNat = 0 from rfl, show (0x0f : Byte).toNat = 0x0f from rfl,
      show (0xac : Byte).toNat = 0xac from rfl]
    omega
  simp only [getSuiteTypeIfOuiIsIeee, hs, hc]

variable [ScrollRule]

theorem readCipherSuite_toLE (v : BitVec 32) (rest : Bytes) :
    readCipherSuite (toLE v ++ rest) = .ok (.withCipherSuiteSelector v, 4) := by
  unfold readCipherSuite
  rd_exact

theorem writeCipherSuite_emits (c : IEEE80211CipherSuiteSelector) :
    Emits (writeCipherSuite c) (toLE c.cipherSuiteSelector) 4 := by
  unfold writeCipherSuite
  exact (WEmits.gwrite_pos (Emits.writeLE _) (by decide)).run

theorem readAkm_toLE (v : BitVec 32) (rest : Bytes) :
    readAkm (toLE v ++ rest) = .ok (.withCipherSuiteSelector v, 4) := by
  unfold readAkm
  rd_exact

theorem writeAkm_emits (c : IEEE80211AkmType) :
    Emits (writeAkm c) (toLE c.cipherSuiteSelector) 4 := by
  unfold writeAkm
  exact (WEmits.gwrite_pos (Emits.writeLE _) (by decide)).run

omit [ScrollRule] in
/-- A step followed by a return. -/
theorem RdAt.bind_pure {α β : Type} {p : Rd α} {f : α → Rd β} {inp : Bytes} {a : α} {b : β} {k : Nat}
    (h : RdAt p inp a k) (hf : f a = Pure.pure b) : RdAt (p >>= f) inp b k := by
  intro pre
  show Rd.bind p f _ _ = _
  simp only [Rd.bind, h pre, hf]
  rfl

omit [ScrollRule] in
theorem readBytes_eq {n : Nat} (bs rest : Bytes) (h : bs.length = n) :
    readBytes n (bs ++ rest) = .ok (bs, n) := by
  subst h; exact readBytes_append bs rest

/-- Reading a counted list. -/
theorem readRsnList_some (cnt : BitVec 16) (bs rest : Bytes) (h : bs.length = cnt.toNat * 4)
    (hs : slack ≤ (bs ++ rest).length) :
    RdAt readRsnList ((toLE cnt ++ bs) ++ rest) (some (.new bs)) (toLE cnt ++ bs).length := by
  have hsl := slack_le
  rw [List.append_assoc]
  apply RdAt.cast
  · apply RdAt.bind (bs := toLE cnt) (rest := bs ++ rest)
      (h1 := by rw [toLE_length]
                exact RdAt.greadOk_some (readLE_append rfl cnt _) (by simp; omega))
    apply RdAt.bind_pure (k := bs.length) (a := some bs) (b := some (ReadIterator.new bs))
    · have := RdAt.greadOk_some (readBytes_eq bs rest h) hs
      rw [← h] at this ⊢
      exact this
    · rfl
  · simp

theorem readRsnList_nil : RdAt readRsnList [] none 0 := by
  apply RdAt.bind_pure (a := none)
  · exact RdAt.greadOk_none (e := .tooBig) (by decide)
  · rfl

/-- Reading a counted list from any input. -/
theorem readRsnList_any (inp : Bytes) :
    (∃ k, k ≤ inp.length ∧ RdAt readRsnList inp none k) ∨
    (∃ (cnt : BitVec 16) (bs rest : Bytes), inp = (toLE cnt ++ bs) ++ rest ∧
      bs.length = cnt.toNat * 4 ∧ slack ≤ (bs ++ rest).length) := by
  have hsl := slack_le
  by_cases h2 : 2 ≤ inp.length
  · obtain ⟨cnt, r, rfl⟩ := exists_toLE 16 rfl h2
    have h1 : RdAt (Rd.greadOk (readLE 16)) (toLE cnt ++ r) (some cnt) (toLE cnt).length := by
      rw [toLE_length]
      exact RdAt.greadOk_some (readLE_append rfl cnt _) (by simp; omega)
    by_cases hc : cnt.toNat * 4 ≤ r.length ∧ slack ≤ r.length
    · right
      refine ⟨cnt, r.take (cnt.toNat * 4), r.drop (cnt.toNat * 4), by simp, by simp; omega, ?_⟩
      simp; omega
    · left
      refine ⟨2, by simp, ?_⟩
      have h3 : RdAt (Rd.greadOk (readBytes (cnt.toNat * 4))) r none 0 := by
        intro pre
        by_cases hr : r.length < slack
        · simp only [Rd.greadOk, Rd.gread, badOff_eq, List.length_append]
          rw [if_pos (by simp; omega)]; rfl
        · have he : readBytes (cnt.toNat * 4) r = .err .tooBig := by
            simp only [readBytes]; rw [if_neg (by omega)]
          exact RdAt.greadOk_none he pre
      apply RdAt.cast
      · refine RdAt.bind (m := 0) h1 ?_
        dsimp only
        exact RdAt.bind_pure h3 rfl
      · simp
  · left
    refine ⟨0, Nat.zero_le _, ?_⟩
    apply RdAt.bind_pure (a := none)
    · refine RdAt.greadOk_none (e := .tooBig) ?_
      simp only [readLE]; rw [if_neg (by omega)]
    · rfl

theorem readCipherSuite_fixed : FixedReader readCipherSuite 4 := by
  unfold readCipherSuite
  rd_fixed_run

theorem readAkm_fixed : FixedReader readAkm 4 := by
  unfold readAkm
  rd_fixed_run

/-- Reading a selector from any input. -/
theorem greadCipher_any (inp : Bytes) :
    RdAt (Rd.greadOk readCipherSuite) inp none 0 ∨
    ∃ (v : BitVec 32) (rest : Bytes), inp = toLE v ++ rest := by
  by_cases h : 4 ≤ inp.length
  · exact .inr (exists_toLE 32 rfl h)
  · left
    obtain ⟨e, he⟩ := (readCipherSuite_fixed inp).2 (by omega)
    exact RdAt.greadOk_none he

theorem greadCipher_some (v : BitVec 32) (rest : Bytes) :
    RdAt (Rd.greadOk readCipherSuite) (toLE v ++ rest) (some (.withCipherSuiteSelector v))
      (toLE v).length := by
  have hsl := slack_le
  rw [toLE_length]
  exact RdAt.greadOk_some (readCipherSuite_toLE v rest) (by simp; omega)

theorem greadU16_any (inp : Bytes) :
    RdAt (Rd.greadOk (readLE 16)) inp none 0 ∨
    ∃ (v : BitVec 16) (rest : Bytes), inp = toLE v ++ rest := by
  by_cases h : 2 ≤ inp.length
  · exact .inr (exists_toLE 16 rfl h)
  · left
    refine RdAt.greadOk_none (e := .tooBig) ?_
    simp only [readLE]; rw [if_neg (by omega)]

theorem greadU16_some (v : BitVec 16) (rest : Bytes) :
    RdAt (Rd.greadOk (readLE 16)) (toLE v ++ rest) (some v) (toLE v).length := by
  have hsl := slack_le
  rw [toLE_length]
  exact RdAt.greadOk_some (readLE_append rfl v _) (by simp; omega)

/-! ## Writing -/

theorem gwriteAll_emits {α : Type} {w : α → Writer} {enc : α → Bytes} {n : Nat} (hn : 0 < n)
    (hw : ∀ a, Emits (w a) (enc a) n) (hl : ∀ a, (enc a).length = n) (l : List α) :
    WEmits (gwriteAll w l) () (l.flatMap enc) (l.length * n) := by
  induction l with
  | nil => exact WEmits.pure.cast rfl (by simp)
  | cons a l ih =>
    have := WEmits.seq (f := fun _ => gwriteAll w l)
      ((WEmits.gwrite_pos (hw a) hn).cast rfl (hl a).symm) ih
    refine this.cast (by simp) ?_
    simp [hl a, Nat.add_mul, Nat.add_comm]

theorem writeArray_emits {α : Type} {w : α → Writer} {enc : α → Bytes} {n : Nat} (hn : 0 < n)
    (hw : ∀ a, Emits (w a) (enc a) n) (hl : ∀ a, (enc a).length = n) (l : List α) :
    Emits (writeArray w l) (l.flatMap enc) (l.length * n) :=
  (gwriteAll_emits hn hw hl l).run

theorem writePmkid_emits (p : Arr 16) : Emits (writePmkid p) p.val 16 := by
  have := (Emits.bytes p.val).pwrite0
  refine this.cast rfl ?_
  have := slack_le
  simp; omega

/-- Writing a counted list. -/
theorem writeRsnList_emits {w : Writer} {bs : Bytes} {n : Nat} (h : Emits w bs n) :
    WEmits (writeRsnList w) () (toLE (BitVec.ofNat 16 bs.length / 4) ++ bs) (2 + max n slack) where
  le := by have := h.le; simp; omega
  ok pre buf hl := by
    obtain ⟨a, buf, rfl⟩ := exists_u8 (inp := buf) (by omega)
    simp only [List.length_cons] at hl
    obtain ⟨b, buf, rfl⟩ := exists_u8 (inp := buf) (by omega)
    simp only [List.length_cons] at hl
    have h1 := (WEmits.gwrite h).ok (pre ++ [a, b]) buf (by omega)
    simp only [List.append_assoc, List.cons_append, List.nil_append, List.length_append,
      List.length_cons, List.length_nil, Nat.zero_add] at h1
    rw [show 1 + 1 = 2 from rfl] at h1
    simp only [writeRsnList, h1]
    have e1 : pre.length + 2 + bs.length - (pre.length + 2) = bs.length := by omega
    have e2 : pre.length + 2 + bs.length - bs.length - 2 = pre.length := by omega
    rw [e1, e2]
    have h2 := (WEmits.gwrite_pos (Emits.writeLE (BitVec.ofNat 16 bs.length / 4)) (by decide)).ok pre
      (a :: b :: (bs ++ buf.drop bs.length)) (by simp)
    simp only [pwrite, h2, List.length_append, toLE_length]
    simp only [Nat.reduceDiv, List.drop_succ_cons, List.drop_zero, List.append_assoc]
    rw [show 2 + bs.length = bs.length + 2 by omega]
    simp only [List.drop_succ_cons]
    rw [show pre.length + 2 + bs.length = pre.length + (bs.length + 2) by omega]
  err pre buf hl := by
    by_cases h2 : buf.length < 2
    · refine ⟨.badOffset, ?_⟩
      simp only [writeRsnList, Wr.gwrite, badOff_eq, List.length_append]
      rw [if_pos (by simp; omega)]
    · obtain ⟨a, buf, rfl⟩ := exists_u8 (inp := buf) (by omega)
      simp only [List.length_cons] at hl h2
      obtain ⟨b, buf, rfl⟩ := exists_u8 (inp := buf) (by omega)
      simp only [List.length_cons] at hl
      obtain ⟨e, he⟩ := (WEmits.gwrite h).err (pre ++ [a, b]) buf (by omega)
      simp only [List.append_assoc, List.cons_append, List.nil_append, List.length_append,
        List.length_cons, List.length_nil, Nat.zero_add] at he
      rw [show 1 + 1 = 2 from rfl] at he
      exact ⟨e, by simp only [writeRsnList, he]⟩

end Verif
