import Verif.Model.Elements.Ht
/-!
# C51: the three conditions on the transmit MCS set

The table of IEEE 802.11 for the Tx MCS set (four columns).  The documentation comment at
/repo/src/elements/ht/mcs_set.rs:10-16 has the second and third row like this but gives the first row
as 1, 1, 0, 0, which would make it a case of the third row; the standard's row is used here.

* no set defined: Defined = 0, Not Equal = 0, Max Streams = 0, Unequal Modulation = 0;
* defined equal to the receive set: 1, 0, 0, 0;
* may differ: Defined = 1, Not Equal = 1.
-/
namespace Verif

namespace Spec

/-- No transmit MCS set is defined. -/
def TxUndefined (f : SupportedMCSSetFlags) : Prop :=
  f.tx_mcs_set_defined = false ∧ f.tx_rx_mcs_set_not_equal = false ∧
    f.tx_maximum_number_spatial_streams_supported = 0 ∧ f.tx_unequal_modulation_supported = false

/-- The transmit MCS set is defined to be equal to the receive MCS set. -/
def TxEqual (f : SupportedMCSSetFlags) : Prop :=
  f.tx_mcs_set_defined = true ∧ f.tx_rx_mcs_set_not_equal = false ∧
    f.tx_maximum_number_spatial_streams_supported = 0 ∧ f.tx_unequal_modulation_supported = false

/-- The transmit MCS set may differ from the receive MCS set. -/
def TxDiffers (f : SupportedMCSSetFlags) : Prop :=
  f.tx_mcs_set_defined = true ∧ f.tx_rx_mcs_set_not_equal = true

/-- The rows exclude each other. -/
theorem rows_exclusive (f : SupportedMCSSetFlags) :
    ¬ (TxUndefined f ∧ TxEqual f) ∧ ¬ (TxEqual f ∧ TxDiffers f) ∧ ¬ (TxUndefined f ∧ TxDiffers f) := by
  unfold TxUndefined TxEqual TxDiffers
  refine ⟨?_, ?_, ?_⟩ <;> rintro ⟨h1, h2⟩ <;> simp_all

end Spec

open Spec

/-- One direction holds for each predicate: the condition implies the predicate, given that in the
third case the flags are not (max streams 0, unequal modulation).  Missing: the converses, see the
violations below. -/
theorem c51_complete_partial (f : SupportedMCSSetFlags) :
    (TxUndefined f → f.isTxMcsUndefined = true) ∧
    (TxEqual f → f.isTxRxMcsDefinedEqual = true) ∧
    (TxDiffers f → f.mayTxMcsSetDifferFromRx =
      !(f.tx_maximum_number_spatial_streams_supported == 0 && f.tx_unequal_modulation_supported)) := by
  unfold TxUndefined TxEqual TxDiffers SupportedMCSSetFlags.isTxRxMcsDefinedEqual
    SupportedMCSSetFlags.mayTxMcsSetDifferFromRx SupportedMCSSetFlags.isTxMcsUndefined
  refine ⟨?_, ?_, ?_⟩
  · rintro ⟨h1, h2, h3, h4⟩; simp [h1]
  · rintro ⟨h1, h2, h3, h4⟩; simp [h1, h2, h3, h4]
  · rintro ⟨h1, h2⟩; simp [h1, h2]

/-- Exactly what the three predicates compute. -/
theorem c51_computes (f : SupportedMCSSetFlags) :
    (f.isTxMcsUndefined = false ↔ f.tx_mcs_set_defined = true ∧ f.tx_rx_mcs_set_not_equal = true ∧
      f.tx_maximum_number_spatial_streams_supported = 0 ∧ f.tx_unequal_modulation_supported = true) ∧
    (f.isTxRxMcsDefinedEqual = true ↔ f.tx_rx_mcs_set_not_equal = false ∧
      f.tx_maximum_number_spatial_streams_supported = 0 ∧ f.tx_unequal_modulation_supported = false) ∧
    (f.mayTxMcsSetDifferFromRx = true ↔ f.tx_rx_mcs_set_not_equal = true ∧
      ¬ (f.tx_mcs_set_defined = true ∧ f.tx_maximum_number_spatial_streams_supported = 0 ∧
        f.tx_unequal_modulation_supported = true)) := by
  unfold SupportedMCSSetFlags.isTxRxMcsDefinedEqual
    SupportedMCSSetFlags.mayTxMcsSetDifferFromRx SupportedMCSSetFlags.isTxMcsUndefined
  cases f.tx_mcs_set_defined <;> cases f.tx_rx_mcs_set_not_equal <;>
    cases f.tx_unequal_modulation_supported <;> simp

/-- C51 is violated: a set defined equal to the receive set is also reported as undefined; an undefined
one is also reported as equal; flags with nothing defined but "not equal" are reported as
possibly differing. -/
theorem c51_violations :
    (∃ f, TxEqual f ∧ f.isTxMcsUndefined = true) ∧
    (∃ f, TxUndefined f ∧ f.isTxRxMcsDefinedEqual = true) ∧
    (∃ f, ¬ TxDiffers f ∧ f.mayTxMcsSetDifferFromRx = true) ∧
    (∃ f, TxDiffers f ∧ f.mayTxMcsSetDifferFromRx = false) := by
  refine ⟨⟨⟨0x00010000⟩, by unfold TxEqual; decide, by decide⟩,
    ⟨⟨0⟩, by unfold TxUndefined; decide, by decide⟩,
    ⟨⟨0x00020000⟩, by unfold TxDiffers; decide, by decide⟩,
    ⟨⟨0x00130000⟩, by unfold TxDiffers; decide, by decide⟩⟩

end Verif
