import Verif.Props.C17
import Verif.Props.C18
/-!
# C83: The ready-made RSN elements describe networks of the kind they are named after

The elements are looked at as bytes, with a decoder of its own: the standard's table of which cipher
suite may protect which traffic, and the rule for management frame protection of each kind of
network (required where every key management suite demands it, offered where some do).
-/
namespace Verif
open Spec (RsnWf RsnSmall RsnEndOk rsnWire)
variable [ScrollRule]

namespace Spec

/-- What the bytes of an RSN element without PMKIDs say. -/
structure RsnView where
  group : Bytes
  pairwise : List Bytes
  akms : List Bytes
  caps : BitVec 16
  mgmt : Option Bytes
  deriving DecidableEq

/-- `n` suites of four bytes, and what follows. -/
def suites : Nat → Bytes → Option (List Bytes × Bytes)
  | 0, bs => some ([], bs)
  | n + 1, a :: b :: c :: d :: rest => (suites n rest).map fun p => ([a, b, c, d] :: p.1, p.2)
  | _ + 1, _ => none

/-- A list of suites behind its count. -/
def countedSuites : Bytes → Option (List Bytes × Bytes)
  | lo :: hi :: rest => suites (lo.toNat + 256 * hi.toNat) rest
  | _ => none

/-- Version 1, the group suite, the two lists, the capabilities and, behind an empty list of PMKIDs,
the group management suite. -/
def rsnView : Bytes → Option RsnView
  | 1 :: 0 :: a :: b :: c :: d :: rest =>
    (countedSuites rest).bind fun (pairwise, rest) =>
    (countedSuites rest).bind fun (akms, rest) =>
      match rest with
      | [lo, hi] => some ⟨[a, b, c, d], pairwise, akms, hi ++ lo, none⟩
      | [lo, hi, 0, 0, e, f, g, h] => some ⟨[a, b, c, d], pairwise, akms, hi ++ lo, some [e, f, g, h]⟩
      | _ => none
  | _ => none

/-- The suite of the standard with this number. -/
def suite (t : Byte) : Bytes := [0x00, 0x0f, 0xac, t]

/-- Suites for group traffic, for traffic between two stations, and for group management frames;
IEEE 802.11 table "cipher suite usage". -/
def groupSuites : List Bytes := [1, 2, 4, 5, 8, 9, 10].map suite
def pairwiseSuites : List Bytes := [0, 2, 4, 8, 9, 10].map suite
def managementSuites : List Bytes := [6, 11, 12, 13].map suite

/-- Every suite is used for what it is for. -/
def rolesFit (v : RsnView) : Prop :=
  v.group ∈ groupSuites ∧ v.pairwise ≠ [] ∧ (∀ s ∈ v.pairwise, s ∈ pairwiseSuites) ∧
  (∀ s, v.mgmt = some s → s ∈ managementSuites)

/-- The key management suites that demand protected management frames: SAE, with and without fast
transition, and opportunistic encryption. -/
def demanding : List Bytes := [8, 9, 18].map suite

/-- The protection announced is the one for these key management suites: required if all demand it,
offered but not required if some do, and otherwise not required. -/
def protectionFits (v : RsnView) : Prop :=
  v.akms ≠ [] ∧
  if ∀ s ∈ v.akms, s ∈ demanding then mfp v.caps = .Required
  else if ∃ s ∈ v.akms, s ∈ demanding then mfp v.caps = .Capable
  else mfp v.caps = .Disabled ∨ mfp v.caps = .Capable

instance (v : RsnView) : Decidable (rolesFit v) := by
  unfold rolesFit
  cases h : v.mgmt with
  | none =>
    exact decidable_of_iff (v.group ∈ groupSuites ∧ v.pairwise ≠ [] ∧
      (∀ s ∈ v.pairwise, s ∈ pairwiseSuites)) (by simp)
  | some m =>
    exact decidable_of_iff (v.group ∈ groupSuites ∧ v.pairwise ≠ [] ∧
      (∀ s ∈ v.pairwise, s ∈ pairwiseSuites) ∧ m ∈ managementSuites) (by simp)

instance (v : RsnView) : Decidable (protectionFits v) := by unfold protectionFits; infer_instance

end Spec

/-- The bytes of `OWE`, in every buffer. -/
theorem c83_owe_bytes : Emits (writeRsnLists .OWE)
    [1, 0, 0x00, 0x0f, 0xac, 4, 1, 0, 0x00, 0x0f, 0xac, 4, 1, 0, 0x00, 0x0f, 0xac, 18, 0xc0, 0] 20 := by
  have hsl := slack_le
  have h : writeRsnLists .OWE = writeRsnLists { RsnElement.OWE with
      group_management_cipher_suite := none } := rfl
  rw [h]
  refine (c17_write _ (by simp [RsnWf, RsnElement.OWE]) (by simp [RsnSmall, RsnElement.OWE])
    (by simp [RsnEndOk, RsnElement.OWE])).cast (by decide) (by decide)

private theorem preset {e : RsnElement.OfLists} {bs : Bytes} {n : Nat}
    (h : Emits (writeRsnLists e) bs n) (hn : bs.length = n) (P : Spec.RsnView → Prop)
    (v : Spec.RsnView) (hv : Spec.rsnView bs = some v) (hp : P v) (buf : Bytes)
    (hb : n ≤ buf.length) :
    ∃ out n v, writeRsnLists e buf = .ok (out, n) ∧ Spec.rsnView (out.take n) = some v ∧ P v := by
  subst hn
  exact ⟨_, _, v, h.ok buf hb, by rw [List.take_left]; exact hv, hp⟩

/-- Every ready-made element but the one for mixed WPA2 and WPA3 networks, written to any buffer,
uses each suite for what it is for and announces the protection its key management suites need. -/
theorem c83_presets_partial (e : RsnElement.OfLists)
    (he : e ∈ [RsnElement.WPA_PERSONAL, .WPA_WPA2_PERSONAL, .WPA2_PERSONAL, .WPA3_PERSONAL, .OWE])
    (buf : Bytes) (hb : 26 ≤ buf.length) :
    ∃ out n v, writeRsnLists e buf = .ok (out, n) ∧ Spec.rsnView (out.take n) = some v ∧
      Spec.rolesFit v ∧ Spec.protectionFits v := by
  obtain ⟨h1, h2, h3, _, h5⟩ := c17_constants_bytes
  simp only [List.mem_cons, List.not_mem_nil, or_false] at he
  rcases he with rfl | rfl | rfl | rfl | rfl
  · exact preset h1 rfl (fun v => Spec.rolesFit v ∧ Spec.protectionFits v) _ rfl (by decide) buf (by omega)
  · exact preset h2 rfl (fun v => Spec.rolesFit v ∧ Spec.protectionFits v) _ rfl (by decide) buf (by omega)
  · exact preset h3 rfl (fun v => Spec.rolesFit v ∧ Spec.protectionFits v) _ rfl (by decide) buf (by omega)
  · exact preset h5 rfl (fun v => Spec.rolesFit v ∧ Spec.protectionFits v) _ rfl (by decide) buf (by omega)
  · exact preset c83_owe_bytes rfl (fun v => Spec.rolesFit v ∧ Spec.protectionFits v) _ rfl (by decide) buf
      (by omega)

/-- Violation: the element for mixed WPA2 and WPA3 networks names PSK and SAE but requires management
frame protection, so that the WPA2 stations without it, for whose sake PSK is offered, may not join.
(The suites are used for what they are for.) -/
theorem c83_transition_wrong (buf : Bytes) (hb : 26 ≤ buf.length) :
    ∃ out n v, writeRsnLists .WPA2_WPA3_PERSONAL buf = .ok (out, n) ∧
      Spec.rsnView (out.take n) = some v ∧ Spec.rolesFit v ∧
      v.akms = [Spec.suite 2, Spec.suite 8] ∧ Spec.mfp v.caps = .Required ∧ ¬Spec.protectionFits v := by
  obtain ⟨_, _, _, h4, _⟩ := c17_constants_bytes
  exact preset h4 rfl (fun v => Spec.rolesFit v ∧ v.akms = [Spec.suite 2, Spec.suite 8] ∧
    Spec.mfp v.caps = .Required ∧ ¬Spec.protectionFits v) _ rfl (by decide) buf (by omega)

/-- Violation: `OWE` holds CCMP as its suite for group management frames, which CCMP cannot protect.
It is only not seen because the suite is not written without a list of PMKIDs: given one by the
builder, of any length, it is sent. -/
theorem c83_owe_wrong (m : List (Arr 16)) (hm : m.length < 4096) :
    (∃ pre, Emits (writeRsnLists (RsnElement.OWE.withPmkidList [] [] m)) (pre ++ Spec.suite 4)
      (pre.length + 4)) ∧
    Spec.suite 4 ∉ Spec.managementSuites := by
  refine ⟨?_, by decide⟩
  have h := c17_write (RsnElement.OWE.withPmkidList [] [] m)
    (by simp [RsnWf, RsnElement.OWE, RsnElement.withPmkidList])
    (by simp [RsnSmall, RsnElement.OWE, RsnElement.withPmkidList]; exact hm)
    (by simp [RsnEndOk, RsnElement.OWE, RsnElement.withPmkidList])
  refine ⟨_, h.cast rfl ?_⟩
  simp only [rsnWire, List.length_append]
  rfl

omit [ScrollRule] in
/-- A concrete case of what the rules refuse: a suite for group management frames used between
stations, SAE without protection, PSK with protection required. -/
example :
    ¬Spec.rolesFit ⟨Spec.suite 4, [Spec.suite 6], [Spec.suite 8], 0xc0, none⟩ ∧
    ¬Spec.protectionFits ⟨Spec.suite 4, [Spec.suite 4], [Spec.suite 8], 0x00, none⟩ ∧
    ¬Spec.protectionFits ⟨Spec.suite 4, [Spec.suite 4], [Spec.suite 2], 0xc0, none⟩ ∧
    Spec.protectionFits ⟨Spec.suite 4, [Spec.suite 4], [Spec.suite 2, Spec.suite 8], 0x80, none⟩ := by
  decide

omit [ScrollRule] in
/-- A concrete case of the decoder. -/
example : Spec.rsnView [1, 0, 0x00, 0x0f, 0xac, 4, 1, 0, 0x00, 0x0f, 0xac, 4, 1, 0, 0x00, 0x0f, 0xac, 8, 0xc0, 0,
    0, 0, 0x00, 0x0f, 0xac, 6] =
    some ⟨Spec.suite 4, [Spec.suite 4], [Spec.suite 8], 0x00c0, some (Spec.suite 6)⟩ := by decide

end Verif
