import Verif.Lemmas.Safety
import Verif.Spec.Parsers
/-!
# Parsers which look only at what they consume: helpers for C42
-/
namespace Verif

/-- A body whose success depends only on the bytes before the offset it ends at. -/
def Rd.Local {α : Type} (p : Rd α) : Prop := ∀ (inp : Bytes) (off : Nat) (a : α) (o : Nat),
  p inp off = .ok (a, o) → off ≤ o ∧ ∀ rest, p (inp.take o ++ rest) off = .ok (a, o)

/-- The same for a parser, which also consumes something. -/
def LocalReader {α : Type} (r : Reader α) : Prop := ∀ (inp : Bytes) (a : α) (n : Nat),
  r inp = .ok (a, n) → 0 < n ∧ ∀ rest, r (inp.take n ++ rest) = .ok (a, n)

theorem LocalReader.ignoresSuffix {α : Type} {r : Reader α} (h : LocalReader r) : Spec.IgnoresSuffix r := by
  intro inp v n hr
  have := (h inp v n hr).2
  refine ⟨fun more => ?_, by simpa using this []⟩
  have := this (inp.drop n ++ more)
  rwa [← List.append_assoc, List.take_append_drop] at this

namespace Rd.Local

theorem run {α : Type} {p : Rd α} (h : Rd.Local p) (hp : ∀ inp a n, Rd.run p inp = .ok (a, n) → 0 < n) :
    LocalReader (Rd.run p) := by
  intro inp a n hr
  exact ⟨hp inp a n hr, (h inp 0 a n hr).2⟩

theorem pure {α : Type} {a : α} : Rd.Local (pure a : Rd α) := by
  intro inp off b o h
  have h' : (Rd.pure a : Rd α) inp off = .ok (b, o) := h
  simp only [Rd.pure, Res.ok.injEq, Prod.mk.injEq] at h'
  obtain ⟨rfl, rfl⟩ := h'
  exact ⟨Nat.le_refl _, fun rest => rfl⟩

theorem fail {α : Type} {e : Err} : Rd.Local (Rd.fail e : Rd α) := by
  intro inp off b o h
  simp [Rd.fail] at h

theorem advance {n : Nat} : Rd.Local (Rd.advance n) := by
  intro inp off b o h
  simp only [Rd.advance, Res.ok.injEq, Prod.mk.injEq] at h
  obtain ⟨_, rfl⟩ := h
  exact ⟨by omega, fun rest => rfl⟩

theorem bind {α β : Type} {p : Rd α} {f : α → Rd β} (h1 : Rd.Local p) (h2 : ∀ a, Rd.Local (f a)) :
    Rd.Local (p >>= f) := by
  intro inp off b o h
  have h' : Rd.bind p f inp off = .ok (b, o) := h
  unfold Rd.bind at h'
  cases hp : p inp off with
  | ok x =>
    obtain ⟨a, o1⟩ := x
    rw [hp] at h'
    obtain ⟨hle, hl⟩ := h1 inp off a o1 hp
    obtain ⟨hle2, hl2⟩ := h2 a inp o1 b o h'
    refine ⟨by omega, fun rest => ?_⟩
    show Rd.bind p f _ _ = _
    have e : inp.take o ++ rest = inp.take o1 ++ ((inp.take o).drop o1 ++ rest) := by
      have := List.take_append_drop o1 (inp.take o)
      rw [List.take_take, Nat.min_eq_left hle2] at this
      rw [← List.append_assoc, this]
    unfold Rd.bind
    rw [e, hl, ← e]
    exact hl2 rest
  | err e => rw [hp] at h'; simp at h'
  | panic => rw [hp] at h'; simp at h'

theorem gread [ScrollRule] {α : Type} {r : Reader α} (h : LocalReader r) : Rd.Local (Rd.gread r) := by
  intro inp off a o ho
  have hs := slack_le
  simp only [Rd.gread, badOff_eq] at ho
  by_cases hb : inp.length < off + slack
  · rw [if_pos (by simpa using hb)] at ho; simp at ho
  · rw [if_neg (by simpa using hb)] at ho
    cases hr : r (inp.drop off) with
    | ok x =>
      obtain ⟨b, n⟩ := x
      rw [hr] at ho
      simp only [Res.ok.injEq, Prod.mk.injEq] at ho
      obtain ⟨rfl, rfl⟩ := ho
      obtain ⟨hn, hl⟩ := h _ _ _ hr
      refine ⟨by omega, fun rest => ?_⟩
      simp only [Rd.gread, badOff_eq]
      have hlen : ¬ (inp.take (off + n) ++ rest).length < off + slack := by
        simp only [List.length_append, List.length_take]; omega
      rw [if_neg (by simpa using hlen)]
      have e : (inp.take (off + n) ++ rest).drop off = (inp.drop off).take n ++ rest := by
        rw [List.drop_append_of_le_length (by simp only [List.length_take]; omega), List.drop_take]
        congr 2; omega
      rw [e, hl]
    | err e => rw [hr] at ho; simp at ho
    | panic => rw [hr] at ho; simp at ho

theorem ite {α : Type} {c : Prop} [Decidable c] {p q : Rd α} (h1 : Rd.Local p) (h2 : Rd.Local q) :
    Rd.Local (if c then p else q) := by
  split <;> assumption

end Rd.Local

/-- A parser whose first step reads something consumes something. -/
theorem Rd.Local.run_gread [ScrollRule] {α β : Type} {r : Reader α} {f : α → Rd β} (h1 : LocalReader r)
    (h2 : ∀ a, Rd.Local (f a)) : LocalReader (Rd.run (Rd.gread r >>= f)) := by
  refine Rd.Local.run (.bind (.gread h1) h2) fun inp b n hr => ?_
  have h' : Rd.bind (Rd.gread r) f inp 0 = .ok (b, n) := hr
  unfold Rd.bind at h'
  cases hp : Rd.gread r inp 0 with
  | ok x =>
    obtain ⟨a, o⟩ := x
    rw [hp] at h'
    have hle := (h2 a inp o b n h').1
    simp only [Rd.gread] at hp
    split at hp
    · simp at hp
    · cases hq : r (inp.drop 0) with
      | ok y =>
        rw [hq] at hp
        simp only [Res.ok.injEq, Prod.mk.injEq] at hp
        have := (h1 _ _ _ hq).1
        omega
      | err e => rw [hq] at hp; simp at hp
      | panic => rw [hq] at hp; simp at hp
  | err e => rw [hp] at h'; simp at h'
  | panic => rw [hp] at h'; simp at h'

theorem readLE_local (w : Nat) (hw : 0 < w / 8) : LocalReader (readLE w) := by
  intro inp a n h
  simp only [readLE] at h
  split at h
  · rename_i hl
    simp only [Res.ok.injEq, Prod.mk.injEq] at h
    obtain ⟨rfl, rfl⟩ := h
    refine ⟨hw, fun rest => ?_⟩
    simp only [readLE]
    rw [if_pos (by simp only [List.length_append, List.length_take]; omega),
      List.take_append_of_le_length (by simp only [List.length_take]; omega), List.take_take, Nat.min_self]
  · simp at h

theorem readBE_local (w : Nat) (hw : 0 < w / 8) : LocalReader (readBE w) := by
  intro inp a n h
  simp only [readBE] at h
  split at h
  · rename_i hl
    simp only [Res.ok.injEq, Prod.mk.injEq] at h
    obtain ⟨rfl, rfl⟩ := h
    refine ⟨hw, fun rest => ?_⟩
    simp only [readBE]
    rw [if_pos (by simp only [List.length_append, List.length_take]; omega),
      List.take_append_of_le_length (by simp only [List.length_take]; omega), List.take_take, Nat.min_self]
  · simp at h

theorem readArr_local (k : Nat) (hk : 0 < k) : LocalReader (readArr k) := by
  intro inp a n h
  obtain ⟨bs, rest, rfl, rfl, h3⟩ := readArr_parses k inp a n h
  subst h3
  refine ⟨by simpa using hk, fun rest' => ?_⟩
  rw [List.take_left]
  simpa using readArr_append a rest'

/-- Goals `LocalReader reader` for a body of simple steps. -/
macro "rd_local" : tactic => `(tactic| repeat (first
  | with_reducible exact Rd.Local.pure
  | with_reducible exact Rd.Local.fail
  | (with_reducible apply Rd.Local.bind (Rd.Local.gread (readLE_local _ (by decide))); intro _)
  | (with_reducible apply Rd.Local.bind (Rd.Local.gread (readArr_local _ (by decide))); intro _)))

theorem Codec.local {α : Type} {r : Reader α} {w : α → Writer} {enc : α → Bytes} {valid : α → Prop}
    {k : Nat} (h : Codec r w enc valid k) (hk : 0 < k) : LocalReader r := by
  intro inp a n hr
  by_cases hl : k ≤ inp.length
  · obtain ⟨b, rest, hv, rfl⟩ := h.onto inp hl
    have := hr.symm.trans (h.read b rest hv)
    simp only [Res.ok.injEq, Prod.mk.injEq] at this
    obtain ⟨rfl, rfl⟩ := this
    refine ⟨hk, fun rest' => ?_⟩
    have e : (enc a ++ rest).take n = enc a := by rw [← h.len a, List.take_left]
    rw [e]
    exact h.read a rest' hv
  · obtain ⟨e, he⟩ := h.short inp (by omega)
    rw [he] at hr; simp at hr

variable [ScrollRule]

theorem Rd.Local.opt {α : Type} {r : Reader α} {c : Bool} (h : LocalReader r) : Rd.Local (Rd.opt c r) := by
  cases c
  · exact Rd.Local.pure
  · apply Rd.Local.bind (Rd.Local.gread h); intro _
    exact Rd.Local.pure

theorem readSupportedMCSSet_local : LocalReader readSupportedMCSSet := by
  apply Rd.Local.run_gread (readArr_local _ (by decide)); intro _
  rd_local
  apply Rd.Local.bind Rd.Local.advance; intro _
  exact Rd.Local.pure

theorem readHTOperation_local : LocalReader readHTOperation := by
  apply Rd.Local.run_gread (readLE_local _ (by decide)); intro _
  rd_local
  apply Rd.Local.bind (Rd.Local.gread readSupportedMCSSet_local); intro _
  exact Rd.Local.pure

theorem readHTCapabilities_local : LocalReader readHTCapabilities := by
  apply Rd.Local.run_gread (readLE_local _ (by decide)); intro _
  rd_local
  apply Rd.Local.bind (Rd.Local.gread readSupportedMCSSet_local); intro _
  rd_local

theorem readBandAndChannelInfo_local : LocalReader readBandAndChannelInfo := by
  apply Rd.Local.run_gread (readLE_local _ (by decide)); intro _
  rd_local

theorem readCipherSuite_local : LocalReader readCipherSuite := by
  apply Rd.Local.run_gread (readLE_local _ (by decide)); intro _
  rd_local

theorem readAkm_local : LocalReader readAkm := by
  apply Rd.Local.run_gread (readLE_local _ (by decide)); intro _
  rd_local

theorem readMgmtHeader_local (f : FCFFlags) : LocalReader (readMgmtHeader f) := by
  apply Rd.Local.run_gread (readLE_local _ (by decide)); intro _
  rd_local
  apply Rd.Local.bind (Rd.Local.opt (readArr_local _ (by decide))); intro _
  exact Rd.Local.pure

theorem readDataHeader_local : LocalReader readDataHeader := by
  apply Rd.Local.run_gread (readLE_local _ (by decide)); intro _
  dsimp only
  split
  · rd_local
    apply Rd.Local.bind (Rd.Local.opt (readArr_local _ (by decide))); intro _
    apply Rd.Local.bind (Rd.Local.opt (readArr_local _ (by decide))); intro _
    apply Rd.Local.bind (Rd.Local.opt (readArr_local _ (by decide))); intro _
    exact Rd.Local.pure
  · exact Rd.Local.fail

theorem readCryptoHeader_local : LocalReader readCryptoHeader := by
  apply Rd.Local.run_gread (readArr_local _ (by decide)); intro _
  apply Rd.Local.ite Rd.Local.fail
  exact Rd.Local.pure

theorem readControlFrame_local (s : ControlFrameSubtype) (f : FCFFlags)
    (hs : s = .RTS ∨ s = .CTS ∨ s = .Ack) : LocalReader (readControlFrame s f) := by
  rcases hs with rfl | rfl | rfl <;>
  · apply Rd.Local.run_gread (readLE_local _ (by decide)); intro _
    rd_local

end Verif
