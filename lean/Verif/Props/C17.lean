import Verif.Lemmas.Rsn
import Verif.Spec.Rsn
import Verif.Spec.Elements
/-!
# C17: the RSN element

`Spec.rsnWire 1` is the wire format of the standard.  The crate counts every PMKID four times when
writing and takes four bytes per counted PMKID when reading, so what it writes is `Spec.rsnWire 4`:
its own output round trips, but it is not the standard format as soon as there is a PMKID.
-/
namespace Verif

open Spec

variable [ScrollRule]

omit [ScrollRule] in
private theorem flatMap_len {α : Type} {enc : α → Bytes} {k : Nat} (h : ∀ a, (enc a).length = k)
    (l : List α) : (l.flatMap enc).length = l.length * k := by
  induction l with
  | nil => simp
  | cons a l ih => simp [ih, h, Nat.add_mul, Nat.add_comm]

omit [ScrollRule] in
private theorem count_eq (n k : Nat) (h : n * (4 * k) < 65536) :
    BitVec.ofNat 16 (n * (4 * k)) / 4 = BitVec.ofNat 16 (k * n) := by
  have e : n * (4 * k) = 4 * (k * n) := by
    rw [Nat.mul_comm n, Nat.mul_assoc]
  rw [e] at h ⊢
  apply BitVec.eq_of_toNat_eq
  rw [BitVec.toNat_udiv]
  simp only [BitVec.toNat_ofNat]
  rw [show (4 : BitVec 16).toNat = 4 from rfl]
  omega

private theorem list_emits {α : Type} {w : α → Writer} {enc : α → Bytes} {k : Nat} (hk : 0 < k)
    (hw : ∀ a, Emits (w a) (enc a) (4 * k)) (hl : ∀ a, (enc a).length = 4 * k) (l : List α)
    (hs : l.length * (4 * k) < 65536) :
    WEmits (writeRsnList (writeArray w l)) () (countedList k enc (some l))
      (2 + max (l.length * (4 * k)) slack) := by
  have h := writeRsnList_emits (writeArray_emits (by omega) hw hl l)
  rw [flatMap_len hl, count_eq _ _ hs] at h
  exact h

private theorem cipher_list (l : List IEEE80211CipherSuiteSelector) (h : l.length < 16384) :
    WEmits (writeRsnList (writeArray writeCipherSuite l)) ()
      (countedList 1 (fun c => toLE c.cipherSuiteSelector) (some l)) (2 + max (l.length * 4) slack) :=
  list_emits (k := 1) (by decide) writeCipherSuite_emits (fun _ => by simp) l (by omega)

private theorem akm_list (l : List IEEE80211AkmType) (h : l.length < 16384) :
    WEmits (writeRsnList (writeArray writeAkm l)) ()
      (countedList 1 (fun c => toLE c.cipherSuiteSelector) (some l)) (2 + max (l.length * 4) slack) :=
  list_emits (k := 1) (by decide) writeAkm_emits (fun _ => by simp) l (by omega)

private theorem pmkid_list (l : List (Arr 16)) (h : l.length < 4096) :
    WEmits (writeRsnList (writeArray writePmkid l)) ()
      (countedList 4 (fun p => p.val) (some l)) (2 + max (l.length * 16) slack) :=
  list_emits (k := 4) (by decide) writePmkid_emits (fun p => by simp) l (by omega)

omit [ScrollRule] in
@[local simp] private theorem len_cipher (l : List IEEE80211CipherSuiteSelector) :
    (countedList 1 (fun c => toLE c.cipherSuiteSelector) (some l)).length = 2 + l.length * 4 := by
  simp only [countedList, List.length_append, toLE_length]
  rw [flatMap_len (k := 4) (fun _ => by simp)]

omit [ScrollRule] in
@[local simp] private theorem len_akm (l : List IEEE80211AkmType) :
    (countedList 1 (fun c => toLE c.cipherSuiteSelector) (some l)).length = 2 + l.length * 4 := by
  simp only [countedList, List.length_append, toLE_length]
  rw [flatMap_len (k := 4) (fun _ => by simp)]

omit [ScrollRule] in
@[local simp] private theorem len_pmkid (k : Nat) (l : List (Arr 16)) :
    (countedList k (fun p => p.val) (some l)).length = 2 + l.length * 16 := by
  simp only [countedList, List.length_append, toLE_length]
  rw [flatMap_len (k := 16) (fun _ => by simp)]

omit [ScrollRule] in
@[local simp] private theorem countedList_none {α : Type} (k : Nat) (enc : α → Bytes) :
    countedList k enc none = [] := rfl
omit [ScrollRule] in
@[local simp] private theorem optField_none {α : Type} (enc : α → Bytes) :
    optField enc none = [] := rfl
omit [ScrollRule] in
@[local simp] private theorem optField_some {α : Type} (enc : α → Bytes) (a : α) :
    optField enc (some a) = enc a := rfl

omit [ScrollRule] in
/-- The seven shapes of a well-formed element. -/
private theorem wf_cases {P A M : Type} {e : RsnElement P A M} (h : RsnWf e) :
    (e = ⟨none, none, none, none, none, none⟩) ∨
    (∃ g, e = ⟨some g, none, none, none, none, none⟩) ∨
    (∃ g p, e = ⟨some g, some p, none, none, none, none⟩) ∨
    (∃ g p a, e = ⟨some g, some p, some a, none, none, none⟩) ∨
    (∃ g p a c, e = ⟨some g, some p, some a, some c, none, none⟩) ∨
    (∃ g p a c m, e = ⟨some g, some p, some a, some c, some m, none⟩) ∨
    (∃ g p a c m k, e = ⟨some g, some p, some a, some c, some m, some k⟩) := by
  obtain ⟨g, p, a, c, m, k⟩ := e
  unfold RsnWf at h
  cases g <;> cases p <;> cases a <;> cases c <;> cases m <;> cases k <;> simp_all

private theorem step_cipher {f : Unit → Wr Unit} {c : IEEE80211CipherSuiteSelector} {bs : Bytes}
    {n : Nat} (h : WEmits (f ()) () bs n) :
    WEmits (Wr.gwrite (writeCipherSuite c) >>= f) () (toLE c.cipherSuiteSelector ++ bs) (4 + n) :=
  (WEmits.seq ((WEmits.gwrite_pos (writeCipherSuite_emits c) (by decide)).cast rfl (by simp)) h).cast
    rfl (by simp)

private theorem step_ciphers {f : Unit → Wr Unit} {l : List IEEE80211CipherSuiteSelector} {bs : Bytes}
    {n : Nat} (hl : l.length < 16384) (h : WEmits (f ()) () bs n) :
    WEmits (writeRsnList (writeArray writeCipherSuite l) >>= f) ()
      (countedList 1 (fun c => toLE c.cipherSuiteSelector) (some l) ++ bs)
      (max (2 + max (l.length * 4) slack) (2 + l.length * 4 + n)) :=
  (WEmits.bind (cipher_list l hl) h).cast rfl (by simp)

private theorem step_akms {f : Unit → Wr Unit} {l : List IEEE80211AkmType} {bs : Bytes}
    {n : Nat} (hl : l.length < 16384) (h : WEmits (f ()) () bs n) :
    WEmits (writeRsnList (writeArray writeAkm l) >>= f) ()
      (countedList 1 (fun c => toLE c.cipherSuiteSelector) (some l) ++ bs)
      (max (2 + max (l.length * 4) slack) (2 + l.length * 4 + n)) :=
  (WEmits.bind (akm_list l hl) h).cast rfl (by simp)

private theorem step_pmkids {f : Unit → Wr Unit} {l : List (Arr 16)} {bs : Bytes}
    {n : Nat} (hl : l.length < 4096) (h : WEmits (f ()) () bs n) :
    WEmits (writeRsnList (writeArray writePmkid l) >>= f) ()
      (countedList 4 (fun p => p.val) (some l) ++ bs)
      (max (2 + max (l.length * 16) slack) (2 + l.length * 16 + n)) :=
  (WEmits.bind (pmkid_list l hl) h).cast rfl (by simp)

local macro "rsn_chain" : tactic => `(tactic| repeat (first
  | with_reducible exact WEmits.pure
  | with_reducible exact WEmits.gwrite_pos (writeCipherSuite_emits _) (by decide)
  | with_reducible apply WEmits.leI (hp := by decide)
  | with_reducible apply step_cipher
  | with_reducible apply step_ciphers (by assumption)
  | with_reducible apply step_akms (by assumption)
  | with_reducible apply step_pmkids (by assumption)))

omit [ScrollRule] in
private theorem one16 : toLE 1#16 = [1#8, 0#8] := by decide

/-- Writing a well-formed element: exactly these bytes, exactly this size. -/
theorem c17_write (e : RsnElement.OfLists) (hwf : RsnWf e) (hs : RsnSmall e) (he : RsnEndOk e) :
    Emits (writeRsnLists e) (rsnWire 4 e) (rsnWire 4 e).length := by
  have hsl := slack_le
  rcases wf_cases hwf with rfl | ⟨g, rfl⟩ | ⟨g, p, rfl⟩ | ⟨g, p, a, rfl⟩ | ⟨g, p, a, c, rfl⟩ |
    ⟨g, p, a, c, m, rfl⟩ | ⟨g, p, a, c, m, k, rfl⟩ <;>
  simp [RsnSmall, RsnEndOk] at hs he <;>
  simp only [writeRsnLists, writeRsn]
  · apply Emits.cast
    · apply WEmits.run
      rsn_chain
    · simp [rsnWire, one16]
    · simp [rsnWire]
  · apply Emits.cast
    · apply WEmits.run
      rsn_chain
    · simp [rsnWire, one16]
    · simp [rsnWire]
  · apply Emits.cast
    · apply WEmits.run
      rsn_chain
    · simp [rsnWire, one16]
    · simp [rsnWire]; omega
  · obtain ⟨h1, h2⟩ := hs
    apply Emits.cast
    · apply WEmits.run
      rsn_chain
    · simp [rsnWire, one16]
    · simp [rsnWire]; omega
  · obtain ⟨h1, h2⟩ := hs
    apply Emits.cast
    · apply WEmits.run
      rsn_chain
    · simp [rsnWire, one16]
    · simp [rsnWire]; omega
  · obtain ⟨h1, h2, h3⟩ := hs
    apply Emits.cast
    · apply WEmits.run
      rsn_chain
    · simp [rsnWire, one16]
    · simp [rsnWire]; omega
  · obtain ⟨h1, h2, h3⟩ := hs
    apply Emits.cast
    · apply WEmits.run
      rsn_chain
    · simp [rsnWire, one16]
    · simp [rsnWire]; omega

/-! ## Parsing -/

omit [ScrollRule] in
private theorem cipher_rt {c : IEEE80211CipherSuiteSelector} (h : c.Canonical) :
    IEEE80211CipherSuiteSelector.withCipherSuiteSelector c.cipherSuiteSelector = c := by
  rw [cipher_with_eq, cipher_sel_eq, IEEE80211CipherSuiteSelector.fromBits_intoBits c h]

omit [ScrollRule] in
private theorem akm_rt {c : IEEE80211AkmType} (h : c.Canonical) :
    IEEE80211AkmType.withCipherSuiteSelector c.cipherSuiteSelector = c := by
  rw [akm_with_eq, akm_sel_eq, IEEE80211AkmType.fromBits_intoBits c h]

private theorem readRsn_of {body : Bytes} {q : RsnElement.Parsed} {n : Nat}
    (h : RdAt readRsnBody body q n) : readRsn ([1, 0] ++ body) = .ok (q, 2 + n) := by
  have e : ([1, 0] : Bytes) = toLE (1 : BitVec 16) := by decide
  rw [e]
  have : RdAt (do
      let v ← Rd.gread (readLE 16)
      if v ≠ 1 then Rd.fail .badInput else readRsnBody) (toLE (1 : BitVec 16) ++ body) q (2 + n) := by
    apply RdAt.le (w := 16) (m := n) (h := by decide) (hp := by decide)
    rw [if_neg (by decide)]
    exact h
  exact this.run

private theorem step_gcipher {β : Type} {f : Option IEEE80211CipherSuiteSelector → Rd β}
    {c : IEEE80211CipherSuiteSelector} (hc : c.Canonical) {rest : Bytes} {b : β} {m : Nat}
    (h : RdAt (f (some c)) rest b m) :
    RdAt (Rd.greadOk readCipherSuite >>= f) (toLE c.cipherSuiteSelector ++ rest) b (4 + m) := by
  have h1 := greadCipher_some c.cipherSuiteSelector rest
  rw [cipher_rt hc] at h1
  exact (RdAt.bind h1 h).cast (by simp)

private theorem step_gu16 {β : Type} {f : Option (BitVec 16) → Rd β}
    {c : BitVec 16} {rest : Bytes} {b : β} {m : Nat} (h : RdAt (f (some c)) rest b m) :
    RdAt (Rd.greadOk (readLE 16) >>= f) (toLE c ++ rest) b (2 + m) :=
  (RdAt.bind (greadU16_some c rest) h).cast (by simp)

private theorem step_glist {α β : Type} {f : Option ReadIterator → Rd β} {enc : α → Bytes}
    {k : Nat} {l : List α} {rest : Bytes} {b : β} {m : Nat} (hl : ∀ a, (enc a).length = 4 * k)
    (hk : 0 < k) (hs : k * l.length < 65536) (he : slack ≤ l.length ∨ slack ≤ rest.length)
    (h : RdAt (f (some (.new (l.flatMap enc)))) rest b m) :
    RdAt (readRsnList >>= f) (countedList k enc (some l) ++ rest) b
      (2 + l.length * (4 * k) + m) := by
  have hlen := flatMap_len hl l
  have hle : l.length ≤ l.length * (4 * k) := Nat.le_mul_of_pos_right _ (by omega)
  refine (RdAt.bind (readRsnList_some (BitVec.ofNat 16 (k * l.length)) (l.flatMap enc) rest ?_ ?_)
    h).cast (by simp [hlen])
  · rw [hlen, BitVec.toNat_ofNat, Nat.mod_eq_of_lt hs, Nat.mul_comm l.length, Nat.mul_assoc,
      Nat.mul_comm 4]
  · rw [List.length_append, hlen]; omega

private abbrev encC (l : List IEEE80211CipherSuiteSelector) : Bytes :=
  l.flatMap fun c => toLE c.cipherSuiteSelector
private abbrev encA (l : List IEEE80211AkmType) : Bytes :=
  l.flatMap fun c => toLE c.cipherSuiteSelector
private abbrev encM (l : List (Arr 16)) : Bytes := l.flatMap fun p => p.val

private theorem step_gciphers {β : Type} {f : Option ReadIterator → Rd β}
    {l : List IEEE80211CipherSuiteSelector} {rest : Bytes} {b : β} {m : Nat} (hs : l.length < 16384)
    (he : slack ≤ l.length ∨ slack ≤ rest.length)
    (h : RdAt (f (some (.new (encC l)))) rest b m) :
    RdAt (readRsnList >>= f)
      (countedList 1 (fun c => toLE c.cipherSuiteSelector) (some l) ++ rest) b (2 + l.length * 4 + m) :=
  step_glist (k := 1) (fun _ => by simp) (by decide) (by omega) he h

private theorem step_gakms {β : Type} {f : Option ReadIterator → Rd β}
    {l : List IEEE80211AkmType} {rest : Bytes} {b : β} {m : Nat} (hs : l.length < 16384)
    (he : slack ≤ l.length ∨ slack ≤ rest.length)
    (h : RdAt (f (some (.new (encA l)))) rest b m) :
    RdAt (readRsnList >>= f)
      (countedList 1 (fun c => toLE c.cipherSuiteSelector) (some l) ++ rest) b (2 + l.length * 4 + m) :=
  step_glist (k := 1) (fun _ => by simp) (by decide) (by omega) he h

private theorem step_gpmkids {β : Type} {f : Option ReadIterator → Rd β}
    {l : List (Arr 16)} {rest : Bytes} {b : β} {m : Nat} (hs : l.length < 4096)
    (he : slack ≤ l.length ∨ slack ≤ rest.length)
    (h : RdAt (f (some (.new (encM l)))) rest b m) :
    RdAt (readRsnList >>= f)
      (countedList 4 (fun p => p.val) (some l) ++ rest) b (2 + l.length * 16 + m) :=
  step_glist (k := 4) (fun p => by simp) (by decide) (by omega) he h

private theorem end_gcipher {β : Type} {f : Option IEEE80211CipherSuiteSelector → Rd β} {b : β}
    (h : f none = pure b) : RdAt (Rd.greadOk readCipherSuite >>= f) [] b 0 := by
  rcases greadCipher_any [] with h1 | ⟨v, r, he⟩
  · exact RdAt.bind_pure h1 h
  · have := congrArg List.length he
    simp at this; omega

private theorem end_gu16 {β : Type} {f : Option (BitVec 16) → Rd β} {b : β}
    (h : f none = pure b) : RdAt (Rd.greadOk (readLE 16) >>= f) [] b 0 := by
  rcases greadU16_any [] with h1 | ⟨v, r, he⟩
  · exact RdAt.bind_pure h1 h
  · have := congrArg List.length he
    simp at this; omega

private theorem end_glist {β : Type} {f : Option ReadIterator → Rd β} {b : β}
    (h : f none = pure b) : RdAt (readRsnList >>= f) [] b 0 := RdAt.bind_pure readRsnList_nil h

private theorem yields_ciphers (l : List IEEE80211CipherSuiteSelector) (h : ∀ c ∈ l, c.Canonical) :
    Yields readCipherSuite (.new (l.flatMap fun c => toLE c.cipherSuiteSelector)) l := by
  induction l with
  | nil =>
    refine .done (it' := ⟨none⟩) ?_
    have hsl := slack_le
    obtain ⟨e, he⟩ := (readCipherSuite_fixed []).2 (by decide)
    simp [ReadIterator.next, ReadIterator.new, he]
  | cons c l ih =>
    refine .more (it' := .new (l.flatMap fun c => toLE c.cipherSuiteSelector)) ?_
      (ih fun c hc => h c (by simp [hc]))
    simp only [ReadIterator.next, ReadIterator.new, List.flatMap_cons, readCipherSuite_toLE,
      cipher_rt (h c (by simp))]
    rw [if_pos (by simp), List.drop_append_of_le_length (by simp), List.drop_of_length_le (by simp)]
    rfl

private theorem yields_akms (l : List IEEE80211AkmType) (h : ∀ c ∈ l, c.Canonical) :
    Yields readAkm (.new (l.flatMap fun c => toLE c.cipherSuiteSelector)) l := by
  induction l with
  | nil =>
    refine .done (it' := ⟨none⟩) ?_
    have hsl := slack_le
    obtain ⟨e, he⟩ := (readAkm_fixed []).2 (by decide)
    simp [ReadIterator.next, ReadIterator.new, he]
  | cons c l ih =>
    refine .more (it' := .new (l.flatMap fun c => toLE c.cipherSuiteSelector)) ?_
      (ih fun c hc => h c (by simp [hc]))
    simp only [ReadIterator.next, ReadIterator.new, List.flatMap_cons, readAkm_toLE,
      akm_rt (h c (by simp))]
    rw [if_pos (by simp), List.drop_append_of_le_length (by simp), List.drop_of_length_le (by simp)]
    rfl

omit [ScrollRule] in
private theorem yields_pmkids (l : List (Arr 16)) :
    Yields readPmkid (.new (l.flatMap fun p => p.val)) l :=
  yields_flatMap (fun p => p.val) (fun p rest => by
    rw [p.property]; exact readArr_append p rest) ⟨.tooBig, by decide⟩ l

omit [ScrollRule] in
private theorem eq_of {α : Type} {r : Reader α} {inp inp' : Bytes} {q : α} {n n' : Nat}
    (h : r inp = .ok (q, n)) (e : inp = inp') (e' : n = n') : r inp' = .ok (q, n') := e ▸ e' ▸ h

/-- Parsing what was written for a well-formed element gives it back: fields after the last one
present are reported as absent.  Behind a complete element anything may follow. -/
theorem c17_read (e : RsnElement.OfLists) (hwf : RsnWf e) (hs : RsnSmall e) (hc : RsnCanonical e)
    (he : RsnEndOk e) (rest : Bytes)
    (hr : rest = [] ∨ e.group_management_cipher_suite.isSome = true) :
    ∃ q, readRsn (rsnWire 4 e ++ rest) = .ok (q, (rsnWire 4 e).length) ∧ RsnSame q e := by
  have hsl := slack_le
  rcases wf_cases hwf with rfl | ⟨g, rfl⟩ | ⟨g, p, rfl⟩ | ⟨g, p, a, rfl⟩ | ⟨g, p, a, c, rfl⟩ |
    ⟨g, p, a, c, m, rfl⟩ | ⟨g, p, a, c, m, k, rfl⟩ <;>
  simp [RsnSmall, RsnEndOk, RsnCanonical] at hs he hc hr <;> try subst hr
  · refine ⟨⟨none, none, none, none, none, none⟩, ?_, ?_⟩
    · exact readRsn_of (end_gcipher rfl)
    · simp [RsnSame, SameList]
  · refine ⟨⟨some g, none, none, none, none, none⟩, ?_, ?_⟩
    · refine eq_of (readRsn_of (step_gcipher hc (end_glist rfl))) (by simp [rsnWire]) (by simp [rsnWire])
    · simp [RsnSame, SameList]
  · refine ⟨⟨some g, some (.new (encC p)), none, none, none, none⟩, ?_, ?_⟩
    · refine eq_of (readRsn_of (step_gcipher hc.1 (step_gciphers hs (rest := []) (.inl he)
        (end_glist rfl)))) (by simp [rsnWire]) (by simp [rsnWire]; try omega)
    · simp only [RsnSame, SameList, true_and, and_true]
      exact yields_ciphers p hc.2
  · refine ⟨⟨some g, some (.new (encC p)), some (.new (encA a)), none, none, none⟩, ?_, ?_⟩
    · refine eq_of (readRsn_of (step_gcipher hc.1 (step_gciphers hs.1 (.inr (by simp; omega))
        (step_gakms hs.2 (rest := []) (.inl he) (end_gu16 rfl))))) (by simp [rsnWire]) (by simp [rsnWire]; try omega)
    · simp only [RsnSame, SameList, true_and, and_true]
      exact ⟨yields_ciphers p hc.2.1, yields_akms a hc.2.2⟩
  · refine ⟨⟨some g, some (.new (encC p)), some (.new (encA a)), some c, none, none⟩, ?_, ?_⟩
    · refine eq_of (readRsn_of (step_gcipher hc.1 (step_gciphers hs.1 (.inr (by simp; omega))
        (step_gakms hs.2 (.inr (by simp; omega)) (step_gu16 (c := c.bits) (rest := [])
        (end_glist rfl)))))) (by simp [rsnWire]) (by simp [rsnWire]; try omega)
    · simp only [RsnSame, SameList, true_and, and_true]
      exact ⟨yields_ciphers p hc.2.1, yields_akms a hc.2.2⟩
  · refine ⟨⟨some g, some (.new (encC p)), some (.new (encA a)), some c, some (.new (encM m)), none⟩,
      ?_, ?_⟩
    · refine eq_of (readRsn_of (step_gcipher hc.1 (step_gciphers hs.1 (.inr (by simp; omega))
        (step_gakms hs.2.1 (.inr (by simp; omega)) (step_gu16 (c := c.bits)
        (step_gpmkids hs.2.2 (rest := []) (.inl he) (end_gcipher rfl))))))) (by simp [rsnWire]) (by simp [rsnWire]; try omega)
    · simp only [RsnSame, SameList, true_and, and_true]
      exact ⟨yields_ciphers p hc.2.1, yields_akms a hc.2.2, yields_pmkids m⟩
  · refine ⟨⟨some g, some (.new (encC p)), some (.new (encA a)), some c, some (.new (encM m)),
      some k⟩, ?_, ?_⟩
    · refine eq_of (readRsn_of (step_gcipher hc.1 (step_gciphers hs.1 (.inr (by simp; omega))
        (step_gakms hs.2.1 (.inr (by simp; omega)) (step_gu16 (c := c.bits)
        (step_gpmkids hs.2.2 (.inr (by simp; omega)) (step_gcipher hc.2.2.2 (rest := rest)
        RdAt.pure))))))) (by simp [rsnWire]) (by simp [rsnWire]; try omega)
    · simp only [RsnSame, SameList, true_and, and_true]
      exact ⟨yields_ciphers p hc.2.1, yields_akms a hc.2.2.1, yields_pmkids m⟩

/-- Round trip: writing into any large enough buffer and parsing the written bytes gives the same
element. -/
theorem c17_round_trip (e : RsnElement.OfLists) (hwf : RsnWf e) (hs : RsnSmall e)
    (hc : RsnCanonical e) (he : RsnEndOk e) (buf : Bytes) (hb : (rsnWire 4 e).length ≤ buf.length) :
    ∃ out n q, writeRsnLists e buf = .ok (out, n) ∧ readRsn (out.take n) = .ok (q, n) ∧
      RsnSame q e := by
  obtain ⟨q, hq, hsame⟩ := c17_read e hwf hs hc he [] (.inl rfl)
  refine ⟨_, _, q, (c17_write e hwf hs he).ok buf hb, ?_, hsame⟩
  rw [List.take_left]
  simpa using hq

/-- A version other than one, or no complete version, is rejected. -/
theorem c17_version (inp : Bytes) (h : ∀ rest, inp ≠ [1, 0] ++ rest) :
    ∃ e, readRsn inp = .err e := by
  have hsl := slack_le
  by_cases hl : 2 ≤ inp.length
  · obtain ⟨v, r, rfl⟩ := exists_toLE 16 rfl hl
    apply RdErr.run
    apply RdErr.bind_right (a := v)
    · rw [toLE_length]
      exact RdAt.gread (readLE_append rfl v r) (by simp; omega)
    · by_cases hv : v = 1
      · exact absurd (by rw [hv]; exact congrArg (· ++ r) one16) (h r)
      · rw [if_pos hv]
        exact RdErr.fail
  · apply RdErr.run
    apply RdErr.bind_left
    exact RdErr.gread (e := .tooBig) (by simp only [readLE]; rw [if_neg (by omega)])

/-! ## Writing back a parsed element -/

private theorem iter_emits (b : Bytes) :
    Emits (ReadIterator.write (.new b)) b (max b.length slack) := by
  have := (Emits.bytes b).pwrite0
  exact this

omit [ScrollRule] in
private theorem parsed_count (n : BitVec 16) (b : Bytes) (h : b.length = n.toNat * 4)
    (hb : b.length < 65536) : BitVec.ofNat 16 b.length / 4 = n := by
  apply BitVec.eq_of_toNat_eq
  rw [BitVec.toNat_udiv, BitVec.toNat_ofNat, show (4 : BitVec 16).toNat = 4 from rfl]
  omega

private theorem step_iter {f : Unit → Wr Unit} {n : BitVec 16} {b bs : Bytes} {k : Nat}
    (h : b.length = n.toNat * 4) (hb : b.length < 65536) (hf : WEmits (f ()) () bs k) :
    WEmits (writeRsnList (ReadIterator.write (.new b)) >>= f) () (toLE n ++ b ++ bs)
      (max (2 + max (max b.length slack) slack) (2 + b.length + k)) := by
  have := writeRsnList_emits (iter_emits b)
  rw [parsed_count n b h hb] at this
  exact (WEmits.bind this hf).cast rfl (by simp)

omit [ScrollRule] in
private theorem cipher_id (v : BitVec 32) :
    (IEEE80211CipherSuiteSelector.withCipherSuiteSelector v).cipherSuiteSelector = v := by
  rw [cipher_sel_eq, cipher_with_eq, IEEE80211CipherSuiteSelector.intoBits_fromBits]

local macro "rsn_chain_parsed" : tactic => `(tactic| repeat (first
  | with_reducible exact WEmits.pure
  | with_reducible exact WEmits.gwrite_pos (writeCipherSuite_emits _) (by decide)
  | with_reducible apply WEmits.leI (hp := by decide)
  | with_reducible apply step_cipher
  | with_reducible apply step_iter (by assumption) (by omega)))

omit [ScrollRule] in
private theorem have_need {w : Writer} {bs bs' : Bytes} {n bound : Nat} (h : Emits w bs' n)
    (hb : bs' = bs) (hn : n ≤ bound) : ∃ need, need ≤ bound ∧ Emits w bs need :=
  ⟨n, hn, hb ▸ h⟩

local macro "rsn_back" : tactic => `(tactic|
  (intro hi
   try simp only [List.length_append, toLE_length] at hi
   simp only [writeRsnParsed, writeRsn, RsnElement.empty]
   apply have_need
   · apply WEmits.run
     rsn_chain_parsed
   · simp [one16, cipher_id]
   · simp; try omega))

omit [ScrollRule] in
private theorem cipher_canonical (v : BitVec 32) :
    (IEEE80211CipherSuiteSelector.withCipherSuiteSelector v).Canonical := by
  rw [cipher_with_eq]
  exact IEEE80211CipherSuiteSelector.canonical_fromBits v

/-- The fields of a parsed element are a prefix of all fields, and the selectors are canonical. -/
private def OwnShape (q : RsnElement.Parsed) : Prop :=
  RsnWf q ∧ (∀ c, q.group_data_cipher_suite = some c → c.Canonical) ∧
    ∀ c, q.group_management_cipher_suite = some c → c.Canonical

/-- What parsing gives on any body. -/
private theorem parse_shape (inp : Bytes) : ∃ q n bs r, inp = bs ++ r ∧ RdAt readRsnBody inp q n ∧
    bs.length ≤ n ∧ n ≤ inp.length ∧ OwnShape q ∧ (inp.length < 65536 →
      ∃ need, need ≤ 2 + bs.length + slack ∧ Emits (writeRsnParsed q) ([1, 0] ++ bs) need) := by
  have hsl := slack_le
  rcases greadCipher_any inp with h1 | ⟨g, r1, rfl⟩
  · exact ⟨_, 0, [], inp, rfl, RdAt.bind_pure h1 rfl, by simp, by omega,
      by simp [OwnShape, RsnWf, RsnElement.empty], by rsn_back⟩
  have s1 := greadCipher_some g r1
  rcases readRsnList_any r1 with ⟨k, hk, h2⟩ | ⟨n2, b2, r2, rfl, l2, e2⟩
  · exact ⟨_, _, toLE g, r1, by simp, RdAt.bind s1 (RdAt.bind_pure h2 rfl), by simp, by simp; try omega,
      by simp [OwnShape, RsnWf, cipher_canonical], by rsn_back⟩
  have s2 := readRsnList_some n2 b2 r2 l2 e2
  rcases readRsnList_any r2 with ⟨k, hk, h3⟩ | ⟨n3, b3, r3, rfl, l3, e3⟩
  · exact ⟨_, _, toLE g ++ (toLE n2 ++ b2), r2, by simp, RdAt.bind s1 (RdAt.bind s2
      (RdAt.bind_pure h3 rfl)), by simp; try omega, by simp; try omega, by simp [OwnShape, RsnWf, cipher_canonical], by rsn_back⟩
  have s3 := readRsnList_some n3 b3 r3 l3 e3
  rcases greadU16_any r3 with h4 | ⟨c, r4, rfl⟩
  · exact ⟨_, _, toLE g ++ (toLE n2 ++ b2) ++ (toLE n3 ++ b3), r3, by simp, RdAt.bind s1
      (RdAt.bind s2 (RdAt.bind s3 (RdAt.bind_pure h4 rfl))), by simp; try omega,
      by simp; try omega, by simp [OwnShape, RsnWf, cipher_canonical], by rsn_back⟩
  have s4 := greadU16_some c r4
  rcases readRsnList_any r4 with ⟨k, hk, h5⟩ | ⟨n5, b5, r5, rfl, l5, e5⟩
  · exact ⟨_, _, toLE g ++ (toLE n2 ++ b2) ++ (toLE n3 ++ b3) ++ toLE c, r4, by simp, RdAt.bind s1
      (RdAt.bind s2 (RdAt.bind s3 (RdAt.bind s4 (RdAt.bind_pure h5 rfl)))), by simp; try omega,
      by simp; try omega, by simp [OwnShape, RsnWf, cipher_canonical], by rsn_back⟩
  have s5 := readRsnList_some n5 b5 r5 l5 e5
  rcases greadCipher_any r5 with h6 | ⟨gm, r6, rfl⟩
  · exact ⟨_, _, toLE g ++ (toLE n2 ++ b2) ++ (toLE n3 ++ b3) ++ toLE c ++ (toLE n5 ++ b5), r5,
      by simp, RdAt.bind s1 (RdAt.bind s2 (RdAt.bind s3 (RdAt.bind s4 (RdAt.bind s5
      (RdAt.bind_pure h6 rfl))))), by simp; try omega, by simp; try omega, by simp [OwnShape, RsnWf, cipher_canonical], by rsn_back⟩
  have s6 := greadCipher_some gm r6
  exact ⟨_, _, toLE g ++ (toLE n2 ++ b2) ++ (toLE n3 ++ b3) ++ toLE c ++ (toLE n5 ++ b5) ++ toLE gm,
      r6, by simp, RdAt.bind s1 (RdAt.bind s2 (RdAt.bind s3 (RdAt.bind s4 (RdAt.bind s5
      (RdAt.bind_pure s6 rfl))))), by simp; try omega, by simp; try omega, by simp [OwnShape, RsnWf, cipher_canonical], by rsn_back⟩

/-- With version one anything is accepted, whatever and however much follows: there is no error and
no panic, and the fields reported are a prefix of all fields. -/
theorem c17_accepts (inp : Bytes) :
    ∃ q n, readRsn ([1, 0] ++ inp) = .ok (q, n) ∧ n ≤ 2 + inp.length ∧ RsnWf q := by
  obtain ⟨q, n, bs, r, -, h, -, hn, hw, -⟩ := parse_shape inp
  exact ⟨q, _, readRsn_of h, by omega, hw.1⟩

/-- Parse then write: writing a parsed element gives back a prefix of the input, all of it that was
consumed but for the count of a list that is cut off. -/
theorem c17_parse_write (inp : Bytes) (q : RsnElement.Parsed) (n : Nat) (hi : inp.length < 65536)
    (h : readRsn inp = .ok (q, n)) :
    ∃ bs r need, inp = bs ++ r ∧ bs.length ≤ n ∧ n ≤ inp.length ∧
      need ≤ bs.length + slack ∧ Emits (writeRsnParsed q) bs need := by
  by_cases hv : ∀ rest, inp ≠ [1, 0] ++ rest
  · obtain ⟨e, he⟩ := c17_version inp hv
    rw [he] at h; simp at h
  · obtain ⟨rest, hv⟩ := Classical.not_forall.1 hv
    obtain rfl := Classical.not_not.1 hv
    obtain ⟨q', n', bs, r, rfl, hr, hb, hn, -, hw⟩ := parse_shape rest
    rw [readRsn_of hr] at h
    simp only [Res.ok.injEq, Prod.mk.injEq] at h
    obtain ⟨rfl, rfl⟩ := h
    obtain ⟨need, h1, h2⟩ := hw (by simp at hi ⊢; omega)
    exact ⟨[1, 0] ++ bs, r, need, by simp, by simp; omega, by simp at hn ⊢; omega,
      by simp; omega, h2⟩

/-! ## The bytes that an element was parsed from -/

/-- A parsed list as it was in the input. -/
private def rawList : Option ReadIterator → Bytes
  | some ⟨some b⟩ => toLE (BitVec.ofNat 16 (b.length / 4)) ++ b
  | _ => []

/-- The fields of a parsed element as they were in the input. -/
private def rawBody (q : RsnElement.Parsed) : Bytes :=
  optField (fun c => toLE c.cipherSuiteSelector) q.group_data_cipher_suite ++ rawList q.pairwise_cipher_suite_list ++
    rawList q.akm_list ++ optField (fun c => toLE c.bits) q.rsn_capbilities ++ rawList q.pmkid_list ++
    optField (fun c => toLE c.cipherSuiteSelector) q.group_management_cipher_suite

/-- A list whose bytes are a multiple of four. -/
private def FourFold (x : Option ReadIterator) : Prop := ∀ it, x = some it → ∃ b : Bytes, it = .new b ∧ b.length % 4 = 0

omit [ScrollRule] in
private theorem rawList_new {n : BitVec 16} {b : Bytes} (h : b.length = n.toNat * 4) :
    rawList (some (.new b)) = toLE n ++ b := by
  have : BitVec.ofNat 16 (b.length / 4) = n := by
    apply BitVec.eq_of_toNat_eq
    have := n.isLt
    rw [BitVec.toNat_ofNat, h]
    omega
  rw [← this]
  rfl

omit [ScrollRule] in
private theorem fourFold_new {n : BitVec 16} {b : Bytes} (h : b.length = n.toNat * 4) : FourFold (some (.new b)) := by
  rintro it ⟨rfl⟩
  exact ⟨b, rfl, by omega⟩

omit [ScrollRule] in
private theorem fourFold_none : FourFold none := by
  rintro it ⟨⟩

private theorem parse_raw (inp : Bytes) : ∃ q n r, inp = rawBody q ++ r ∧ RdAt readRsnBody inp q n ∧
    FourFold q.pairwise_cipher_suite_list ∧ FourFold q.akm_list ∧ FourFold q.pmkid_list := by
  rcases greadCipher_any inp with h1 | ⟨g, r1, rfl⟩
  · exact ⟨_, 0, inp, rfl, RdAt.bind_pure h1 rfl, fourFold_none, fourFold_none, fourFold_none⟩
  have s1 := greadCipher_some g r1
  rcases readRsnList_any r1 with ⟨k, hk, h2⟩ | ⟨n2, b2, r2, rfl, l2, e2⟩
  · exact ⟨_, _, r1, by simp [rawBody, rawList, optField, cipher_id], RdAt.bind s1 (RdAt.bind_pure h2 rfl),
      fourFold_none, fourFold_none, fourFold_none⟩
  have s2 := readRsnList_some n2 b2 r2 l2 e2
  have w2 := rawList_new l2
  have f2 := fourFold_new l2
  rcases readRsnList_any r2 with ⟨k, hk, h3⟩ | ⟨n3, b3, r3, rfl, l3, e3⟩
  · exact ⟨_, _, r2, by simp [rawBody, w2, optField, cipher_id]; simp [rawList], RdAt.bind s1 (RdAt.bind s2
      (RdAt.bind_pure h3 rfl)), f2, fourFold_none, fourFold_none⟩
  have s3 := readRsnList_some n3 b3 r3 l3 e3
  have w3 := rawList_new l3
  have f3 := fourFold_new l3
  rcases greadU16_any r3 with h4 | ⟨c, r4, rfl⟩
  · exact ⟨_, _, r3, by simp [rawBody, w2, w3, optField, cipher_id]; simp [rawList], RdAt.bind s1
      (RdAt.bind s2 (RdAt.bind s3 (RdAt.bind_pure h4 rfl))), f2, f3, fourFold_none⟩
  have s4 := greadU16_some c r4
  rcases readRsnList_any r4 with ⟨k, hk, h5⟩ | ⟨n5, b5, r5, rfl, l5, e5⟩
  · exact ⟨_, _, r4, by simp [rawBody, w2, w3, optField, cipher_id]; simp [rawList], RdAt.bind s1
      (RdAt.bind s2 (RdAt.bind s3 (RdAt.bind s4 (RdAt.bind_pure h5 rfl)))), f2, f3, fourFold_none⟩
  have s5 := readRsnList_some n5 b5 r5 l5 e5
  have w5 := rawList_new l5
  have f5 := fourFold_new l5
  rcases greadCipher_any r5 with h6 | ⟨gm, r6, rfl⟩
  · exact ⟨_, _, r5, by simp [rawBody, w2, w3, w5, optField, cipher_id], RdAt.bind s1 (RdAt.bind s2 (RdAt.bind s3
      (RdAt.bind s4 (RdAt.bind s5 (RdAt.bind_pure h6 rfl))))), f2, f3, f5⟩
  have s6 := greadCipher_some gm r6
  exact ⟨_, _, r6, by simp [rawBody, w2, w3, w5, optField, cipher_id], RdAt.bind s1 (RdAt.bind s2 (RdAt.bind s3
      (RdAt.bind s4 (RdAt.bind s5 (RdAt.bind_pure s6 rfl))))), f2, f3, f5⟩

omit [ScrollRule] in
/-- Bytes in whole items. -/
private theorem whole_items {α : Type} {enc : α → Bytes} {P : α → Prop} {k : Nat}
    (h : ∀ b : Bytes, b.length = k → ∃ a, P a ∧ enc a = b) (m : Nat) :
    ∀ b : Bytes, b.length = m * k → ∃ l : List α, (∀ a ∈ l, P a) ∧ l.flatMap enc = b ∧ l.length = m := by
  induction m with
  | zero => intro b hb; exact ⟨[], by simp, (List.length_eq_zero_iff.1 (by simpa using hb)).symm, rfl⟩
  | succ m ih =>
    intro b hb
    have hkb : k ≤ b.length := by rw [hb, Nat.succ_mul]; omega
    obtain ⟨a, ha, hae⟩ := h (b.take k) (by rw [List.length_take]; omega)
    obtain ⟨l, hl, hle, hll⟩ := ih (b.drop k) (by rw [List.length_drop, hb, Nat.succ_mul]; omega)
    refine ⟨a :: l, ?_, by rw [List.flatMap_cons, hae, hle, List.take_append_drop], by simp [hll]⟩
    intro x hx
    rcases List.mem_cons.1 hx with rfl | hx
    · exact ha
    · exact hl x hx

omit [ScrollRule] in
private theorem same_raw {α : Type} {r : Reader α} {enc : α → Bytes} {P : α → Prop} {k : Nat}
    (h : ∀ b : Bytes, b.length = 4 * k → ∃ a, P a ∧ enc a = b)
    (hy : ∀ l : List α, (∀ a ∈ l, P a) → Yields r (.new (l.flatMap enc)) l)
    {x : Option ReadIterator} {y : Option (List α)} (hs : SameList r x y)
    (hf : ∀ it, x = some it → ∃ b : Bytes, it = .new b ∧ b.length % (4 * k) = 0) :
    rawList x = countedList k enc y := by
  cases x with
  | none => cases y with
    | none => rfl
    | some l => cases hs
  | some it => cases y with
    | none => cases hs
    | some l =>
      obtain ⟨b, rfl, hb⟩ := hf it rfl
      obtain ⟨l', h1, rfl, h3⟩ := whole_items h (b.length / (4 * k)) b (by
        rw [Nat.div_mul_cancel (Nat.dvd_of_mod_eq_zero hb)])
      obtain rfl : l = l' := Yields.unique hs (hy _ h1)
      have hlen : (l.flatMap enc).length = 4 * (k * l.length) := by
        rw [h3]
        have := Nat.div_mul_cancel (Nat.dvd_of_mod_eq_zero hb)
        rw [← Nat.mul_assoc, Nat.mul_comm, this]
      show toLE (BitVec.ofNat 16 ((l.flatMap enc).length / 4)) ++ _ = toLE (BitVec.ofNat 16 (k * l.length)) ++ _
      rw [hlen, Nat.mul_div_cancel_left _ (by decide)]

/-- The bytes an element was parsed from: if it has the fields and items of `e`, and the bytes of its PMKID list make up
whole PMKIDs, these are the bytes of `e`, and then bytes that were not parsed. -/
theorem c17_parsed_from_partial (inp : Bytes) (q : RsnElement.Parsed) (n : Nat) (h : readRsn inp = .ok (q, n))
    (e : RsnElement.OfLists) (hs : RsnSame q e) (hp : ∀ b, q.pmkid_list = some (.new b) → b.length % 16 = 0) :
    ∃ r, inp = rsnWire 4 e ++ r := by
  by_cases hv : ∀ rest, inp ≠ [1, 0] ++ rest
  · obtain ⟨e, he⟩ := c17_version inp hv
    rw [he] at h; simp at h
  · obtain ⟨rest, hv⟩ := Classical.not_forall.1 hv
    obtain rfl := Classical.not_not.1 hv
    obtain ⟨q', n', r, rfl, hr, f2, f3, f5⟩ := parse_raw rest
    rw [readRsn_of hr] at h
    simp only [Res.ok.injEq, Prod.mk.injEq] at h
    obtain ⟨rfl, rfl⟩ := h
    obtain ⟨s1, s2, s3, s4, s5, s6⟩ := hs
    refine ⟨r, ?_⟩
    have c2 := same_raw (k := 1) (enc := fun c : IEEE80211CipherSuiteSelector => toLE c.cipherSuiteSelector)
      (P := fun c => c.Canonical) (fun b hb => ⟨.withCipherSuiteSelector (fromLE 32 b), cipher_canonical _, by
        rw [cipher_id, toLE_fromLE rfl b (by simpa using hb)]⟩) yields_ciphers s2 (by simpa [FourFold] using f2)
    have c3 := same_raw (k := 1) (enc := fun c : IEEE80211AkmType => toLE c.cipherSuiteSelector)
      (P := fun c => c.Canonical) (fun b hb => ⟨.withCipherSuiteSelector (fromLE 32 b), by
        rw [akm_with_eq]; exact IEEE80211AkmType.canonical_fromBits _, by
        rw [akm_sel_eq, akm_with_eq, IEEE80211AkmType.intoBits_fromBits, toLE_fromLE rfl b (by simpa using hb)]⟩)
      yields_akms s3 (by simpa [FourFold] using f3)
    have c5 := same_raw (k := 4) (enc := fun p : Arr 16 => p.val) (P := fun _ => True)
      (fun b hb => ⟨⟨b, by simpa using hb⟩, trivial, rfl⟩) (fun l _ => yields_pmkids l) s5 (by
        intro it hit
        obtain ⟨b, rfl, _⟩ := f5 it hit
        exact ⟨b, rfl, hp b hit⟩)
    rw [rawBody, rsnWire, c2, c3, c5, s1, s4, s6]
    simp

/-! ## Exactly which elements survive -/

private theorem write_any (e : RsnElement.OfLists) (hwf : RsnWf e) (hs : RsnSmall e) :
    ∃ need, need ≤ (rsnWire 4 e).length + slack ∧ Emits (writeRsnLists e) (rsnWire 4 e) need := by
  have hsl := slack_le
  rcases wf_cases hwf with rfl | ⟨g, rfl⟩ | ⟨g, p, rfl⟩ | ⟨g, p, a, rfl⟩ | ⟨g, p, a, c, rfl⟩ |
    ⟨g, p, a, c, m, rfl⟩ | ⟨g, p, a, c, m, k, rfl⟩ <;>
  simp [RsnSmall] at hs <;> simp only [writeRsnLists, writeRsn]
  · apply have_need
    · apply WEmits.run
      rsn_chain
    · simp [rsnWire, one16]
    · simp [rsnWire]
  · apply have_need
    · apply WEmits.run
      rsn_chain
    · simp [rsnWire, one16]
    · simp [rsnWire]
  · apply have_need
    · apply WEmits.run
      rsn_chain
    · simp [rsnWire, one16]
    · simp [rsnWire]; omega
  · obtain ⟨h1, h2⟩ := hs
    apply have_need
    · apply WEmits.run
      rsn_chain
    · simp [rsnWire, one16]
    · simp [rsnWire]; omega
  · obtain ⟨h1, h2⟩ := hs
    apply have_need
    · apply WEmits.run
      rsn_chain
    · simp [rsnWire, one16]
    · simp [rsnWire]; omega
  · obtain ⟨h1, h2, h3⟩ := hs
    apply have_need
    · apply WEmits.run
      rsn_chain
    · simp [rsnWire, one16]
    · simp [rsnWire]; omega
  · obtain ⟨h1, h2, h3⟩ := hs
    apply have_need
    · apply WEmits.run
      rsn_chain
    · simp [rsnWire, one16]
    · simp [rsnWire]; omega

private theorem own_shape {inp : Bytes} {q : RsnElement.Parsed} {n : Nat}
    (h : readRsn inp = .ok (q, n)) : OwnShape q := by
  by_cases hv : ∀ rest, inp ≠ [1, 0] ++ rest
  · obtain ⟨e, he⟩ := c17_version inp hv
    rw [he] at h; simp at h
  · obtain ⟨rest, hv⟩ := Classical.not_forall.1 hv
    obtain rfl := Classical.not_not.1 hv
    obtain ⟨q', n', bs, r, rfl, hr, -, -, hw, -⟩ := parse_shape rest
    rw [readRsn_of hr] at h
    simp only [Res.ok.injEq, Prod.mk.injEq] at h
    obtain ⟨rfl, rfl⟩ := h
    exact hw

omit [ScrollRule] in
/-- What an iterator yields was read by its reader. -/
private theorem yields_all {α : Type} {r : Reader α} {P : α → Prop}
    (hr : ∀ inp a n, r inp = .ok (a, n) → P a) {it : ReadIterator} {l : List α} (h : Yields r it l) :
    ∀ a ∈ l, P a := by
  induction h with
  | done => simp
  | more h t ih =>
    rename_i it it' a l
    have ha : P a := by
      obtain ⟨b⟩ := it
      cases b with
      | none => simp [ReadIterator.next] at h
      | some b =>
        cases hx : r b with
        | ok p =>
          obtain ⟨a', n⟩ := p
          simp only [ReadIterator.next, hx] at h
          split at h <;> simp at h
          rw [← h.1]
          exact hr _ _ _ hx
        | err e => simp [ReadIterator.next, hx] at h
        | panic => simp [ReadIterator.next, hx] at h
    simpa using ⟨ha, ih⟩

private theorem cipher_read {inp : Bytes} {c : IEEE80211CipherSuiteSelector} {n : Nat}
    (h : readCipherSuite inp = .ok (c, n)) : c.Canonical := by
  by_cases hl : 4 ≤ inp.length
  · obtain ⟨v, r, rfl⟩ := exists_toLE 32 rfl hl
    rw [readCipherSuite_toLE] at h
    cases h
    exact cipher_canonical v
  · obtain ⟨e, he⟩ := (readCipherSuite_fixed inp).2 (by omega)
    rw [he] at h; cases h

private theorem akm_read {inp : Bytes} {c : IEEE80211AkmType} {n : Nat}
    (h : readAkm inp = .ok (c, n)) : c.Canonical := by
  by_cases hl : 4 ≤ inp.length
  · obtain ⟨v, r, rfl⟩ := exists_toLE 32 rfl hl
    rw [readAkm_toLE] at h
    cases h
    rw [akm_with_eq]
    exact IEEE80211AkmType.canonical_fromBits v
  · obtain ⟨e, he⟩ := (readAkm_fixed inp).2 (by omega)
    rw [he] at h; cases h

omit [ScrollRule] in
private theorem same_isSome {α : Type} {r : Reader α} {a : Option ReadIterator} {b : Option (List α)}
    (h : SameList r a b) : a.isSome = b.isSome := by
  cases a <;> cases b <;> simp_all [SameList]

/-- An empty list at the very end of the input is not found under the strict rule. -/
private theorem empty_list_end (hs : slack ≠ 0) :
    ∃ k, RdAt readRsnList (toLE (0 : BitVec 16) ++ []) none k := by
  rcases readRsnList_any (toLE (0 : BitVec 16) ++ []) with ⟨k, -, h⟩ | ⟨cnt, bs, rest, h, -, h'⟩
  · exact ⟨k, h⟩
  · have := congrArg List.length h
    simp only [List.length_append, toLE_length, List.length_nil] at this h'
    omega

private theorem step_gcipher_any {β : Type} {f : Option IEEE80211CipherSuiteSelector → Rd β}
    {c : IEEE80211CipherSuiteSelector} {rest : Bytes} {b : β} {m : Nat}
    (h : RdAt (f (some (.withCipherSuiteSelector c.cipherSuiteSelector))) rest b m) :
    RdAt (Rd.greadOk readCipherSuite >>= f) (toLE c.cipherSuiteSelector ++ rest) b (4 + m) :=
  (RdAt.bind (greadCipher_some c.cipherSuiteSelector rest) h).cast (by simp)

/-- Exactly which elements survive being written and parsed, as long as the lists fit their counts: no field
is present after one that is missing, no selector is `Unknown` with the code of a named suite and, under the
strict rule, the last field is not an empty list.  What has a gap is written only up to the gap. -/
theorem c17_round_trip_exact (e : RsnElement.OfLists) (hs : RsnSmall e) (buf : Bytes)
    (hb : (rsnWire 4 e).length + slack ≤ buf.length) :
    (∃ out n q k, writeRsnLists e buf = .ok (out, n) ∧ readRsn (out.take n) = .ok (q, k) ∧ RsnSame q e) ↔
      RsnWf e ∧ RsnCanonical e ∧ RsnEndOk e := by
  constructor
  · rintro ⟨out, n, q, k, hw, hr, hq⟩
    obtain ⟨s1, s2, s3, s4, s5, s6⟩ := hq
    obtain ⟨w, cg, cm⟩ := own_shape hr
    have hwf : RsnWf e := by
      unfold RsnWf at w ⊢
      rwa [s1, s4, s6, same_isSome s2, same_isSome s3, same_isSome s5] at w
    have hc : RsnCanonical e := by
      refine ⟨by rwa [s1] at cg, ?_, ?_, by rwa [s6] at cm⟩
      · intro l hl
        rw [hl] at s2
        cases hp : q.pairwise_cipher_suite_list with
        | none => rw [hp] at s2; exact s2.elim
        | some it => rw [hp] at s2; exact yields_all (fun _ _ _ => cipher_read) s2
      · intro l hl
        rw [hl] at s3
        cases hp : q.akm_list with
        | none => rw [hp] at s3; exact s3.elim
        | some it => rw [hp] at s3; exact yields_all (fun _ _ _ => akm_read) s3
    refine ⟨hwf, hc, ?_⟩
    by_cases hsl : slack = 0
    · simp [RsnEndOk, hsl]
    have hsl1 : slack = 1 := by have := slack_le; omega
    obtain ⟨need, hn, he⟩ := write_any e hwf hs
    rw [he.ok buf (by omega)] at hw
    cases hw
    rw [List.take_left] at hr
    obtain ⟨ke, hend⟩ := empty_list_end hsl
    rcases wf_cases hwf with rfl | ⟨g, rfl⟩ | ⟨g, p, rfl⟩ | ⟨g, p, a, rfl⟩ | ⟨g, p, a, c, rfl⟩ |
      ⟨g, p, a, c, m, rfl⟩ | ⟨g, p, a, c, m, k, rfl⟩ <;>
    simp [RsnEndOk, RsnSmall, hsl1] at hs ⊢
    · cases p with
      | cons => simp
      | nil =>
        have := eq_of (inp' := rsnWire 4 ⟨some g, some [], none, none, none, none⟩)
          (readRsn_of (step_gcipher_any (c := g) (RdAt.bind_pure hend rfl)))
          (by simp [rsnWire, countedList]) rfl
        rw [this] at hr
        cases hr
        exact s2.elim
    · cases a with
      | cons => simp
      | nil =>
        have := eq_of (inp' := rsnWire 4 ⟨some g, some p, some [], none, none, none⟩)
          (readRsn_of (step_gcipher_any (c := g) (step_gciphers hs.1
          (rest := toLE (0 : BitVec 16) ++ []) (.inr (by simp; omega)) (RdAt.bind_pure hend rfl))))
          (by simp [rsnWire, countedList]) rfl
        rw [this] at hr
        cases hr
        exact s3.elim
    · cases m with
      | cons => simp
      | nil =>
        have := eq_of (inp' := rsnWire 4 ⟨some g, some p, some a, some c, some [], none⟩)
          (readRsn_of (step_gcipher_any (c := g) (step_gciphers hs.1 (.inr (by simp; omega))
          (step_gakms hs.2.1 (.inr (by simp; omega)) (step_gu16 (c := c.bits)
          (RdAt.bind_pure hend rfl))))))
          (by simp [rsnWire, countedList]) rfl
        rw [this] at hr
        cases hr
        exact s5.elim
  · rintro ⟨hwf, hc, he⟩
    obtain ⟨out, n, q, hw, hr, hq⟩ := c17_round_trip e hwf hs hc he buf (by omega)
    exact ⟨out, n, q, n, hw, hr, hq⟩

/-! ## Sizes -/

omit [ScrollRule] in
/-- The size reported is the number of bytes written, when there are no PMKIDs. -/
theorem c17_measure_partial (e : RsnElement.OfLists) (k : Nat)
    (hm : ∀ l, e.pmkid_list = some l → l = []) :
    measureRsnLists e = (rsnWire k e).length := by
  obtain ⟨g, p, a, c, m, gm⟩ := e
  simp only at hm
  have : m = none ∨ m = some [] := by
    cases m with
    | none => exact .inl rfl
    | some l => exact .inr (by rw [hm l rfl])
  rcases this with rfl | rfl <;> cases g <;> cases p <;> cases a <;> cases c <;> cases gm <;>
    simp [measureRsnLists, RsnElement.measure, rsnWire] <;> omega

omit [ScrollRule] in
/-- Violation: with PMKIDs the size reported is twelve bytes too small for each. -/
theorem c17_measure_pmkid (e : RsnElement.OfLists) (k : Nat) (l : List (Arr 16))
    (hm : e.pmkid_list = some l) :
    measureRsnLists e + 12 * l.length = (rsnWire k e).length := by
  obtain ⟨g, p, a, c, m, gm⟩ := e
  simp only at hm
  subst hm
  cases g <;> cases p <;> cases a <;> cases c <;> cases gm <;>
    simp [measureRsnLists, RsnElement.measure, rsnWire] <;> omega

/-! ## The PMKID count -/

omit [ScrollRule] in
/-- Without PMKIDs the written form is the one of the standard. -/
theorem c17_standard_partial (e : RsnElement.OfLists) (hm : ∀ l, e.pmkid_list = some l → l = []) :
    rsnWire 4 e = rsnWire 1 e := by
  obtain ⟨g, p, a, c, m, gm⟩ := e
  simp only at hm
  cases m with
  | none => rfl
  | some l => rw [hm l rfl]; rfl

omit [ScrollRule] in
/-- Violation: with any PMKIDs it is not; the count is four times the number of PMKIDs. -/
theorem c17_pmkid_count (e : RsnElement.OfLists) (l : List (Arr 16)) (hm : e.pmkid_list = some l)
    (hl : l ≠ []) (hs : l.length < 4096) : rsnWire 4 e ≠ rsnWire 1 e := by
  obtain ⟨g, p, a, c, m, gm⟩ := e
  simp only at hm
  subst hm
  intro h
  simp only [rsnWire, countedList, List.append_assoc, List.append_cancel_left_eq] at h
  have h1 := List.append_inj_left h (by simp)
  have h2 := congrArg (fromLE 16) h1
  rw [fromLE_toLE rfl, fromLE_toLE rfl] at h2
  have h3 := congrArg BitVec.toNat h2
  simp only [BitVec.toNat_ofNat] at h3
  have : 0 < l.length := List.length_pos_iff.2 hl
  omega

/-- Violation: an element as in the standard, with a single PMKID, is misread: only four bytes of the
PMKID are taken for the list, which holds no PMKID then, and the next four bytes of it are taken for
the group management cipher suite. -/
theorem c17_pmkid_misread : ∃ (pm : Arr 16),
    let e : RsnElement.OfLists := ⟨some .Ccmp128, some [.Ccmp128], some [.Psk], some .new, some [pm],
      some .BipCmac128⟩
    ∃ q n, readRsn (rsnWire 1 e) = .ok (q, n) ∧ ¬ RsnSame q e ∧
      q.group_management_cipher_suite = some (.Unknown 0) := by
  refine ⟨⟨List.replicate 16 0, rfl⟩, ?_⟩
  dsimp only
  refine ⟨⟨some .Ccmp128, some (.new [0x00, 0x0f, 0xac, 0x04]), some (.new [0x00, 0x0f, 0xac, 0x02]),
    some .new, some (.new [0, 0, 0, 0]), some (.Unknown 0)⟩, 30, ?_, ?_, rfl⟩
  · cases ‹ScrollRule› with | mk s => cases s <;> decide
  · intro h
    exact absurd h.2.2.2.2.2 (by decide)

omit [ScrollRule] in
/-- Bytes at the end that do not make up a PMKID are left out. -/
private theorem yields_rest (l : List (Arr 16)) (r : Bytes) (hr : r.length < 16) :
    Yields readPmkid (.new (l.flatMap (fun p => p.val) ++ r)) l := by
  induction l with
  | nil =>
    have he : ∃ e, readPmkid r = .err e := by
      simp only [readPmkid, readArr]
      rw [dif_neg (by omega)]
      exact ⟨_, rfl⟩
    obtain ⟨e, he⟩ := he
    exact .done (it' := ⟨none⟩) (by simp [ReadIterator.next, ReadIterator.new, he])
  | cons x xs ih =>
    have h := readArr_append x (xs.flatMap (fun p => p.val) ++ r)
    refine .more (it' := .new (xs.flatMap (fun p => p.val) ++ r)) ?_ ih
    simp only [ReadIterator.next, ReadIterator.new, List.flatMap_cons, List.append_assoc, readPmkid, h]
    rw [if_pos (by simp)]
    simp

/-- Violation: whatever PMKIDs an element as in the standard has, only a quarter of them are read, and four octets in the
middle of the others are taken for the group management cipher suite. -/
theorem c17_pmkid_shifted (g : IEEE80211CipherSuiteSelector) (p : List IEEE80211CipherSuiteSelector)
    (a : List IEEE80211AkmType) (c : RsnCapabilities) (l : List (Arr 16)) (gm : Option IEEE80211CipherSuiteSelector)
    (hl : l ≠ []) (hp : p.length < 16384) (ha : a.length < 16384) (hs : l.length < 4096) (hg : g.Canonical)
    (hpc : ∀ c ∈ p, c.Canonical) (hac : ∀ c ∈ a, c.Canonical) :
    ∃ q gm', readRsn (rsnWire 1 ⟨some g, some p, some a, some c, some l, gm⟩) =
        .ok (q, 18 + 4 * p.length + 4 * a.length + 4 * l.length) ∧
      RsnSame q ⟨some g, some p, some a, some c, some (l.take (l.length / 4)), some gm'⟩ ∧
      gm'.Canonical ∧ toLE gm'.cipherSuiteSelector = ((l.flatMap fun p => p.val).drop (4 * l.length)).take 4 := by
  have hsl := slack_le
  have hpos : 0 < l.length := List.length_pos_iff.2 hl
  have hlen : (l.flatMap fun p => p.val).length = l.length * 16 := flatMap_len (fun p => p.property) l
  have hcut : ∃ t, (l.flatMap fun p => p.val).take (4 * l.length) =
      (l.take (l.length / 4)).flatMap (fun p => p.val) ++ t ∧ t.length < 16 := by
    have h1 : (l.flatMap fun p => p.val) = (l.take (l.length / 4)).flatMap (fun p => p.val) ++
        (l.drop (l.length / 4)).flatMap (fun p => p.val) := by
      rw [← List.flatMap_append, List.take_append_drop]
    have h2 : ((l.take (l.length / 4)).flatMap (fun p => p.val)).length = (l.length / 4) * 16 := by
      rw [flatMap_len (fun p : Arr 16 => p.property), List.length_take]
      congr 1
      omega
    refine ⟨((l.drop (l.length / 4)).flatMap (fun p => p.val)).take (4 * l.length - (l.length / 4) * 16), ?_, ?_⟩
    · conv => lhs; rw [h1]
      rw [List.take_append, h2, List.take_of_length_le (by omega)]
    · rw [List.length_take]; omega
  obtain ⟨t, ht, htl⟩ := hcut
  have hwire : rsnWire 1 ⟨some g, some p, some a, some c, some l, gm⟩ = [1, 0] ++ (toLE g.cipherSuiteSelector ++
      (countedList 1 (fun c => toLE c.cipherSuiteSelector) (some p) ++
      (countedList 1 (fun c => toLE c.cipherSuiteSelector) (some a) ++ (toLE c.bits ++
      (toLE (BitVec.ofNat 16 l.length) ++ (l.flatMap (fun p => p.val) ++
        optField (fun c => toLE c.cipherSuiteSelector) gm)))))) := by
    simp [rsnWire, countedList, optField]
  rw [hwire]
  generalize (l.flatMap fun p => p.val) = all at hlen ht ⊢
  generalize optField (fun c => toLE c.cipherSuiteSelector) gm = tail
  obtain ⟨v, r, hv⟩ := exists_toLE (inp := all.drop (4 * l.length)) 32 rfl (by simp [hlen]; omega)
  have hall : all = all.take (4 * l.length) ++ (toLE v ++ r) := by
    rw [← hv, List.take_append_drop]
  refine ⟨⟨some g, some (.new (encC p)), some (.new (encA a)), some c,
    some (.new (all.take (4 * l.length))), some (.withCipherSuiteSelector v)⟩,
    .withCipherSuiteSelector v, ?_, ⟨rfl, yields_ciphers p hpc, yields_akms a hac, rfl, ?_, rfl⟩,
    cipher_canonical v, ?_⟩
  · refine eq_of (readRsn_of (step_gcipher hg (step_gciphers hp (.inr ?_)
      (step_gakms ha (.inr ?_) (step_gu16 (c := c.bits)
      (RdAt.bind (readRsnList_some (BitVec.ofNat 16 l.length) (all.take (4 * l.length)) (toLE v ++ (r ++ tail)) ?_ ?_)
      (RdAt.bind (greadCipher_some v (r ++ tail)) RdAt.pure))))))) ?_ ?_
    · simp; omega
    · simp; omega
    · simp [hlen, Nat.mod_eq_of_lt (show l.length < 65536 by omega)]; omega
    · simp; omega
    · conv => rhs; rw [hall]
      simp only [List.append_assoc]
    · simp [hlen]; omega
  · show Yields readPmkid _ _
    rw [ht]
    exact yields_rest _ _ htl
  · rw [hv, cipher_id]
    simp

/-- Violation: a PMKID makes the length byte of the element twelve too small, so that whoever parses it
gets the element cut short: the group management cipher suite is not the one written. -/
theorem c17_pmkid_element : ∃ (pm : Arr 16),
    let e : RsnElement.OfLists := ⟨some .Ccmp128, some [.Ccmp128], some [.Psk], some .new, some [pm],
      some .BipCmac128⟩
    ∃ out n q k, (rsnElem e).writeWrapped (List.replicate 60 0) = .ok (out, n) ∧
      readRsn ((out.drop 2).take (out[1]!).toNat) = .ok (q, k) ∧
      q.pmkid_list = none ∧ q.group_management_cipher_suite = none := by
  refine ⟨⟨List.replicate 16 0, rfl⟩, ?_⟩
  cases ‹ScrollRule› with | mk s =>
  cases s
  · exact ⟨_, _, _, _, by rfl, by rfl, by decide, by decide⟩
  · exact ⟨_, _, _, _, by rfl, by rfl, by decide, by decide⟩

/-! ## Builders and constants -/

omit [ScrollRule] in
/-- The `with_` functions keep an element well-formed: what is missing before the field set is filled
in; the fields already set stay. -/
theorem c17_builders {P A M : Type} (dp : P) (da : A) (dm : M) (e : RsnElement P A M)
    (h : RsnWf e) :
    (∀ c, RsnWf (e.withGroupDataCipherSuite c)) ∧
    (∀ l : P, RsnWf (e.withPairwiseCipherSuiteList l)) ∧
    (∀ l : A, RsnWf (e.withAkmList dp l)) ∧
    (∀ c, RsnWf (e.withRsnCapabilities dp da c)) ∧
    (∀ l : M, RsnWf (e.withPmkidList dp da l)) ∧
    (∀ c, RsnWf (e.withGroupManagementCipherSuite dp da dm c)) := by
  obtain ⟨g, p, a, c, m, k⟩ := e
  unfold RsnWf at h
  cases g <;> cases p <;> cases a <;> cases c <;> cases m <;> cases k <;>
    simp_all [RsnWf, RsnElement.withGroupDataCipherSuite, RsnElement.withPairwiseCipherSuiteList,
      RsnElement.withAkmList, RsnElement.withRsnCapabilities, RsnElement.withPmkidList,
      RsnElement.withGroupManagementCipherSuite]

omit [ScrollRule] in
/-- What each `with_` function leaves in each field: the field set holds the argument, every earlier
field holds what it held or, if it held nothing, the default (CCMP-128, the default list, no
capability bit), and every later field is untouched. -/
theorem c17_builder_fields {P A M : Type} (dp : P) (da : A) (dm : M) (g k : Option _)
    (p : Option P) (a : Option A) (c : Option RsnCapabilities) (m : Option M) :
    let e : RsnElement P A M := ⟨g, p, a, c, m, k⟩
    let g' := some (g.getD .Ccmp128)
    let p' := some (p.getD dp)
    let a' := some (a.getD da)
    let c' := some (c.getD .new)
    let m' := some (m.getD dm)
    (∀ x, e.withGroupDataCipherSuite x = ⟨some x, p, a, c, m, k⟩) ∧
    (∀ (P' : Type) (x : P'), e.withPairwiseCipherSuiteList x = ⟨g', some x, a, c, m, k⟩) ∧
    (∀ (A' : Type) (x : A'), e.withAkmList dp x = ⟨g', p', some x, c, m, k⟩) ∧
    (∀ x, e.withRsnCapabilities dp da x = ⟨g', p', a', some x, m, k⟩) ∧
    (∀ (M' : Type) (x : M'), e.withPmkidList dp da x = ⟨g', p', a', c', some x, k⟩) ∧
    (∀ x, e.withGroupManagementCipherSuite dp da dm x = ⟨g', p', a', c', m', some x⟩) := by
  cases g <;> cases p <;> cases a <;> cases c <;> cases m <;>
    exact ⟨fun _ => rfl, fun _ _ => rfl, fun _ _ => rfl, fun _ => rfl, fun _ _ => rfl, fun _ => rfl⟩

omit [ScrollRule] in
/-- Concrete case: a PMKID list added to an element with an AKM list keeps that list. -/
example : ((RsnElement.WPA2_WPA3_PERSONAL.withPmkidList [] [] ([] : List (Arr 16))).akm_list) =
    some [.Psk, .Sae] := by decide

omit [ScrollRule] in
theorem c17_empty_wf {P A M : Type} : RsnWf (RsnElement.empty : RsnElement P A M) := by
  simp [RsnWf, RsnElement.empty]

omit [ScrollRule] in
private theorem consts_wf (e : RsnElement.OfLists) (he : e ∈ [RsnElement.WPA_PERSONAL, .WPA_WPA2_PERSONAL, .WPA2_PERSONAL,
    .WPA2_WPA3_PERSONAL, .WPA3_PERSONAL]) :
    RsnWf e ∧ RsnSmall e ∧ RsnCanonical e := by
  simp only [List.mem_cons, List.not_mem_nil, or_false] at he
  rcases he with rfl | rfl | rfl | rfl | rfl <;>
    refine ⟨by simp [RsnWf, RsnElement.WPA_PERSONAL, RsnElement.WPA_WPA2_PERSONAL,
      RsnElement.WPA2_PERSONAL, RsnElement.WPA2_WPA3_PERSONAL, RsnElement.WPA3_PERSONAL],
      by simp [RsnSmall, RsnElement.WPA_PERSONAL, RsnElement.WPA_WPA2_PERSONAL,
      RsnElement.WPA2_PERSONAL, RsnElement.WPA2_WPA3_PERSONAL, RsnElement.WPA3_PERSONAL],
      by simp [RsnCanonical, RsnElement.WPA_PERSONAL, RsnElement.WPA_WPA2_PERSONAL,
      RsnElement.WPA2_PERSONAL, RsnElement.WPA2_WPA3_PERSONAL, RsnElement.WPA3_PERSONAL,
      IEEE80211CipherSuiteSelector.Canonical, IEEE80211AkmType.Canonical]⟩

/-- The constants other than `OWE` round trip, and have the form of the standard. -/
theorem c17_constants_partial (e : RsnElement.OfLists)
    (he : e ∈ [RsnElement.WPA_PERSONAL, .WPA_WPA2_PERSONAL, .WPA2_PERSONAL,
      .WPA2_WPA3_PERSONAL, .WPA3_PERSONAL]) (buf : Bytes)
    (hb : (rsnWire 1 e).length ≤ buf.length) :
    ∃ out n q, writeRsnLists e buf = .ok (out, n) ∧ out.take n = rsnWire 1 e ∧
      readRsn (out.take n) = .ok (q, n) ∧ RsnSame q e := by
  have hsl := slack_le
  obtain ⟨h1, h2, h3⟩ := consts_wf e he
  have h4 : RsnEndOk e := by
    simp only [List.mem_cons, List.not_mem_nil, or_false] at he
    rcases he with rfl | rfl | rfl | rfl | rfl <;>
      simp [RsnEndOk, RsnElement.WPA_PERSONAL, RsnElement.WPA_WPA2_PERSONAL,
      RsnElement.WPA2_PERSONAL, RsnElement.WPA2_WPA3_PERSONAL, RsnElement.WPA3_PERSONAL]
  have h5 : rsnWire 4 e = rsnWire 1 e := by
    simp only [List.mem_cons, List.not_mem_nil, or_false] at he
    rcases he with rfl | rfl | rfl | rfl | rfl <;> rfl
  obtain ⟨q, hq, hsame⟩ := c17_read e h1 h2 h3 h4 [] (.inl rfl)
  rw [← h5] at hb ⊢
  refine ⟨_, _, q, (c17_write e h1 h2 h4).ok buf hb, by rw [List.take_left], ?_, hsame⟩
  rw [List.take_left]
  simpa using hq

/-- The bytes of each constant, from the version on: group suite, pairwise suites, AKM suites and
capabilities, in the order of the standard. -/
theorem c17_constants_bytes :
    Emits (writeRsnLists .WPA_PERSONAL)
      [1, 0, 0x00, 0x0f, 0xac, 2, 1, 0, 0x00, 0x0f, 0xac, 2, 1, 0, 0x00, 0x0f, 0xac, 2, 0, 0] 20 ∧
    Emits (writeRsnLists .WPA_WPA2_PERSONAL)
      [1, 0, 0x00, 0x0f, 0xac, 2, 2, 0, 0x00, 0x0f, 0xac, 2, 0x00, 0x0f, 0xac, 4, 1, 0, 0x00, 0x0f, 0xac, 2,
        0, 0] 24 ∧
    Emits (writeRsnLists .WPA2_PERSONAL)
      [1, 0, 0x00, 0x0f, 0xac, 4, 1, 0, 0x00, 0x0f, 0xac, 4, 1, 0, 0x00, 0x0f, 0xac, 2, 0, 0] 20 ∧
    Emits (writeRsnLists .WPA2_WPA3_PERSONAL)
      [1, 0, 0x00, 0x0f, 0xac, 4, 1, 0, 0x00, 0x0f, 0xac, 4, 2, 0, 0x00, 0x0f, 0xac, 2, 0x00, 0x0f, 0xac, 8,
        0xc0, 0] 24 ∧
    Emits (writeRsnLists .WPA3_PERSONAL)
      [1, 0, 0x00, 0x0f, 0xac, 4, 1, 0, 0x00, 0x0f, 0xac, 4, 1, 0, 0x00, 0x0f, 0xac, 8, 0xc0, 0, 0, 0,
        0x00, 0x0f, 0xac, 6] 26 := by
  have key : ∀ e : RsnElement.OfLists, e ∈ [RsnElement.WPA_PERSONAL, .WPA_WPA2_PERSONAL,
      .WPA2_PERSONAL, .WPA2_WPA3_PERSONAL, .WPA3_PERSONAL] →
      Emits (writeRsnLists e) (rsnWire 4 e) (rsnWire 4 e).length := by
    intro e he
    obtain ⟨h1, h2, h3⟩ := consts_wf e he
    refine c17_write e h1 h2 ?_
    simp only [List.mem_cons, List.not_mem_nil, or_false] at he
    rcases he with rfl | rfl | rfl | rfl | rfl <;>
      simp [RsnEndOk, RsnElement.WPA_PERSONAL, RsnElement.WPA_WPA2_PERSONAL,
      RsnElement.WPA2_PERSONAL, RsnElement.WPA2_WPA3_PERSONAL, RsnElement.WPA3_PERSONAL]
  exact ⟨(key _ (by simp)).cast (by decide) (by decide), (key _ (by simp)).cast (by decide) (by decide),
    (key _ (by simp)).cast (by decide) (by decide), (key _ (by simp)).cast (by decide) (by decide),
    (key _ (by simp)).cast (by decide) (by decide)⟩

/-- Violation: `OWE` names a group management cipher suite but no PMKID list; the suite is not
written although it is measured.  The rest is: CCMP, CCMP, the AKM suite of OWE and the capabilities. -/
theorem c17_owe_lost :
    ∃ out n q, writeRsnLists .OWE (List.replicate 40 0) = .ok (out, n) ∧
      out.take n = [1, 0, 0x00, 0x0f, 0xac, 4, 1, 0, 0x00, 0x0f, 0xac, 4, 1, 0, 0x00, 0x0f, 0xac, 18,
        0xc0, 0] ∧
      readRsn (out.take n) = .ok (q, n) ∧ q.group_management_cipher_suite = none ∧
      RsnElement.OWE.group_management_cipher_suite = some .Ccmp128 ∧
      measureRsnLists .OWE = n + 4 := by
  cases ‹ScrollRule› with | mk s =>
  cases s
  · exact ⟨_, _, _, by rfl, by rfl, by rfl, by decide, by decide, by decide⟩
  · exact ⟨_, _, _, by rfl, by rfl, by rfl, by decide, by decide, by decide⟩

omit [ScrollRule] in
/-- If `scroll` refuses empty reads at the end of the input, a list that is empty and last is read as
absent. -/
theorem c17_empty_list_strict : let _ : ScrollRule := ⟨true⟩
    readRsn (rsnWire 1 ⟨some .Ccmp128, some [], none, none, none, none⟩) =
      .ok (⟨some .Ccmp128, none, none, none, none, none⟩, 8) := by decide

/-- Concrete case: two PMKIDs and everything else, satisfying all hypotheses above. -/
example : ∃ e : RsnElement.OfLists, RsnWf e ∧ RsnSmall e ∧ RsnCanonical e ∧ RsnEndOk e ∧
    (∃ p q, e.pmkid_list = some [p, q]) ∧ e.group_management_cipher_suite.isSome := by
  refine ⟨⟨some .Ccmp128, some [.Ccmp128, .Tkip], some [.Psk, .Sae], some .new,
    some [⟨List.replicate 16 0, rfl⟩, ⟨List.replicate 16 1, rfl⟩], some .BipCmac128⟩,
    by simp [RsnWf], by simp [RsnSmall], ?_, by simp [RsnEndOk], ⟨_, _, rfl⟩, rfl⟩
  simp [RsnCanonical, IEEE80211CipherSuiteSelector.Canonical, IEEE80211AkmType.Canonical]

end Verif
