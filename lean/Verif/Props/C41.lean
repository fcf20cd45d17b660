import Verif.Lemmas.ParserSafe
import Verif.Props.C19
import Verif.Props.C23
import Verif.Props.C26
import Verif.Props.C30
import Verif.Props.C32
import Verif.Props.C37
import Verif.Props.C49
/-!
# C41: parsing received bytes never panics

True of every parser but these: a frame with a check sequence, the mesh peering management element, and
the payload of a protected data frame.  For each of the three the exact inputs which panic are given.
-/
namespace Verif
open Spec

variable [ScrollRule] [Crc32]

/-- Parsing any bytes with any of the listed parsers gives a value or an error.  (The full statement
is for all parsers; the violations follow.) -/
theorem c41_no_panic_partial {α : Type} {r : Reader α} (h : Parser r) : NoPanic r :=
  (parser_safe h).noPanic

omit [Crc32] in
/-- Three parsers which report more than they were given (C43) do not panic either. -/
theorem c41_no_panic_overreporting :
    NoPanic readSupportedMCSSet ∧ NoPanic readHTOperation ∧ NoPanic readSubframe :=
  ⟨noPanic_of_ne readSupportedMCSSet_ne_panic, noPanic_of_ne readHTOperation_ne_panic,
    noPanic_of_ne readSubframe_ne_panic⟩

/-- Frames with a check sequence: a value or an error when there are four bytes, a panic when there
are fewer. -/
theorem c41_with_fcs {β : Type} (r : Reader β) (hr : Parser r) (inp : Bytes) :
    (readMgmtFrame r true inp = .panic ↔ inp.length < 4) ∧
    (readDataFrame true inp = .panic ↔ inp.length < 4) := by
  refine ⟨⟨fun h => ?_, c23_short_fcs r inp⟩, by simp [c49_panics_iff]⟩
  apply Classical.byContradiction
  intro hl
  exact c23_safe r (parser_safe hr) true inp (fun _ => by omega) h

omit [Crc32] in
/-- The mesh peering management element: a panic exactly when there are more than 24 bytes. -/
theorem c41_mesh_peering (inp : Bytes) : readMeshPeering inp = .panic ↔ 24 < inp.length := by
  refine ⟨fun h => ?_, c19_read_long_panics inp⟩
  apply Classical.byContradiction
  intro hl
  exact c19_no_panic_partial inp (by omega) h

/-- The payload of a protected frame: a panic exactly when the bytes after an accepted header are fewer
than the MIC. -/
theorem c41_crypto_wrapper {π : Type} (m : MicState) (r : Reader π) (hr : Parser r) (inp : Bytes) :
    readCryptoWrapper m r inp = .panic ↔
      8 ≤ inp.length ∧ inp.length < 8 + m.micLength ∧ extIv inp = true :=
  c32_read_panics_iff m r (parser_safe hr).ne_panic inp

/-- Violation: each of the three does panic on some bytes. -/
theorem c41_violations :
    readMgmtFrame readBeaconLike true [0x80, 0] = .panic ∧
    readDataFrame true [] = .panic ∧
    readMeshPeering (List.replicate 25 0) = .panic ∧
    readCryptoWrapper .Short (readDataFramePayload false) [0, 0, 0, 0x20, 0, 0, 0, 0] = .panic := by
  refine ⟨((c41_with_fcs _ .beaconLike _).1).2 (by decide), ((c41_with_fcs _ .beaconLike _).2).2 (by decide),
    (c41_mesh_peering _).2 (by simp), (c41_crypto_wrapper _ _ (.dataPayload false) _).2 ⟨by decide, by decide, by decide⟩⟩

/-- A parser of the kind the theorem is about, with one input for either outcome. -/
example (s : Bool) :
    letI : ScrollRule := ⟨s⟩
    letI : Crc32 := ⟨fun _ => 0⟩
    Parser (readMgmtFrame readBeaconLike false) ∧ (readMgmtFrame readBeaconLike false [0x80, 0]).isErr = true ∧
    (readMgmtFrame readBeaconLike false (0x80 :: List.replicate 40 0)).isOk = true := by
  letI : ScrollRule := ⟨s⟩
  letI : Crc32 := ⟨fun _ => 0⟩
  exact ⟨.mgmtFrame _ .beaconLike, by cases s <;> decide +kernel, by cases s <;> decide +kernel⟩

end Verif
