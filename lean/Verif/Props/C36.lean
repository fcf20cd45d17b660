import Verif.Props.C34
/-!
# C36: partitioning a PTK

`partition_ptk` has no way to panic in the model: all its steps are checked ones.
-/
namespace Verif

open Spec

/-- A partition is returned exactly when the three lengths are known and the PTK is long enough; the three
pieces then have these lengths and lie one after the other at the beginning of the PTK. -/
theorem c36_partition (ptk : Bytes) (akm : IEEE80211AkmType) (cipher : IEEE80211CipherSuiteSelector)
    (kck kek tk : Bytes) :
    partitionPtk ptk akm cipher = some (kck, kek, tk) ↔
      (∃ rest, ptk = kck ++ (kek ++ (tk ++ rest))) ∧ akm.kckLen = some kck.length ∧
      akm.kekLen = some kek.length ∧ cipher.tkLen = some tk.length := by
  unfold partitionPtk
  cases h1 : akm.kckLen with
  | none => simp
  | some a =>
  cases h2 : akm.kekLen with
  | none => simp
  | some b =>
  cases h3 : cipher.tkLen with
  | none => simp
  | some c =>
  simp only [Option.bind_eq_bind, Option.bind_some, splitAtChecked]
  by_cases ha : a ≤ ptk.length
  · simp only [if_pos ha, Option.bind_some, List.length_drop]
    by_cases hb : b ≤ ptk.length - a
    · simp only [if_pos hb, Option.bind_some, List.length_drop]
      by_cases hc : c ≤ ptk.length - a - b
      · simp only [if_pos hc]
        constructor
        · intro h
          simp only [Option.some.injEq, Prod.mk.injEq] at h
          obtain ⟨rfl, rfl, rfl⟩ := h
          refine ⟨⟨(ptk.drop (a + b)).drop c, ?_⟩, ?_, ?_, ?_⟩
          · rw [List.drop_drop, List.take_append_drop, ← List.drop_drop, List.take_append_drop,
              List.take_append_drop]
          · simp; omega
          · simp; omega
          · simp; omega
        · rintro ⟨⟨rest, rfl⟩, e1, e2, e3⟩
          simp only [Option.some.injEq] at e1 e2 e3
          subst e1 e2 e3
          simp
      · simp only [if_neg hc, Option.bind_none]
        constructor
        · intro h; cases h
        · rintro ⟨⟨rest, rfl⟩, e1, e2, e3⟩
          simp only [Option.some.injEq] at e1 e2 e3
          subst e1 e2 e3
          simp at hc
    · simp only [if_neg hb, Option.bind_none]
      constructor
      · intro h; cases h
      · rintro ⟨⟨rest, rfl⟩, e1, e2, e3⟩
        simp only [Option.some.injEq] at e1 e2 e3
        subst e1 e2 e3
        simp at hb
  · simp only [if_neg ha, Option.bind_none]
    constructor
    · intro h; cases h
    · rintro ⟨⟨rest, rfl⟩, e1, e2, e3⟩
      simp only [Option.some.injEq] at e1 e2 e3
      subst e1 e2 e3
      simp at ha

/-- When nothing is returned: a length is unknown, or the PTK is shorter than the three together. -/
theorem c36_none_iff (ptk : Bytes) (akm : IEEE80211AkmType) (cipher : IEEE80211CipherSuiteSelector) :
    partitionPtk ptk akm cipher = none ↔
      ptkLen akm cipher = none ∨ ∃ n, ptkLen akm cipher = some n ∧ ptk.length < n := by
  constructor
  · intro h
    unfold ptkLen
    cases h1 : akm.kckLen with
    | none => simp
    | some a =>
    cases h2 : akm.kekLen with
    | none => simp
    | some b =>
    cases h3 : cipher.tkLen with
    | none => simp
    | some c =>
    right
    refine ⟨_, rfl, ?_⟩
    apply Nat.lt_of_not_le
    intro hle
    have := (c36_partition ptk akm cipher (ptk.take a) ((ptk.drop a).take b)
      ((ptk.drop (a + b)).take c)).2 ⟨⟨(ptk.drop (a + b)).drop c, by
        rw [List.take_append_drop, ← List.drop_drop, List.take_append_drop, List.take_append_drop]⟩,
        by rw [h1]; simp; omega, by rw [h2]; simp; omega, by rw [h3]; simp; omega⟩
    rw [h] at this; cases this
  · intro h
    cases hp : partitionPtk ptk akm cipher with
    | none => rfl
    | some x =>
      obtain ⟨kck, kek, tk⟩ := x
      obtain ⟨⟨rest, rfl⟩, e1, e2, e3⟩ := (c36_partition ptk akm cipher kck kek tk).1 hp
      simp only [ptkLen, e1, e2, e3] at h
      rcases h with h | ⟨n, hn, hl⟩
      · cases h
      · simp at hn hl; omega

/-- A derived PTK of the right length is partitioned completely. -/
theorem c36_derived [HmacSha1] (pmk : Bytes) (aa spa : Mac) (an sn : Arr 32) (akm : IEEE80211AkmType)
    (cipher : IEEE80211CipherSuiteSelector) (n : Nat) (h : ptkLen akm cipher = some n) :
    ∃ kck kek tk, partitionPtk (derivePtk pmk aa spa an sn n) akm cipher = some (kck, kek, tk) ∧
      kck ++ (kek ++ tk) = derivePtk pmk aa spa an sn n := by
  have hl := (c34_ptk pmk aa spa an sn akm cipher n h).1
  cases hp : partitionPtk (derivePtk pmk aa spa an sn n) akm cipher with
  | none =>
    rcases (c36_none_iff _ _ _).1 hp with h' | ⟨m, h', hlt⟩
    · rw [h] at h'; cases h'
    · rw [h] at h'; cases h'; omega
  | some x =>
    obtain ⟨kck, kek, tk⟩ := x
    obtain ⟨⟨rest, hr⟩, e1, e2, e3⟩ := (c36_partition _ akm cipher kck kek tk).1 hp
    refine ⟨kck, kek, tk, rfl, ?_⟩
    have hn : n = kck.length + kek.length + tk.length := by
      simp only [ptkLen, e1, e2, e3, Option.some.injEq] at h
      exact h.symm
    have hz : rest = [] := by
      have := congrArg List.length hr
      rw [hl] at this
      simp at this
      apply List.eq_nil_of_length_eq_zero
      omega
    rw [hr, hz]; simp

/-- WPA2-PSK with CCMP, from 50 bytes: two are left over. -/
example : partitionPtk ((List.range 50).map (BitVec.ofNat 8)) .Psk .Ccmp128 =
    some ((List.range' 0 16).map (BitVec.ofNat 8), (List.range' 16 16).map (BitVec.ofNat 8),
      (List.range' 32 16).map (BitVec.ofNat 8)) := by decide

end Verif
