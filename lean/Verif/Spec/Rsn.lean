import Verif.Model.Elements.Rsn
import Verif.Spec.Iter
/-!
# The wire format of the RSN element and what it means to parse it correctly
-/
namespace Verif.Spec

/-- A field is present only if all fields before it are. -/
def RsnWf {P A M : Type} (e : RsnElement P A M) : Prop :=
  (e.pairwise_cipher_suite_list.isSome → e.group_data_cipher_suite.isSome) ∧
  (e.akm_list.isSome → e.pairwise_cipher_suite_list.isSome) ∧
  (e.rsn_capbilities.isSome → e.akm_list.isSome) ∧
  (e.pmkid_list.isSome → e.rsn_capbilities.isSome) ∧
  (e.group_management_cipher_suite.isSome → e.pmkid_list.isSome)

/-- A counted list: 16 bit count, then the items.  `unit` is what one item adds to the count. -/
def countedList {α : Type} (unit : Nat) (enc : α → Bytes) : Option (List α) → Bytes
  | none => []
  | some l => toLE (BitVec.ofNat 16 (unit * l.length)) ++ l.flatMap enc

/-- An optional field. -/
def optField {α : Type} (enc : α → Bytes) : Option α → Bytes
  | none => []
  | some a => enc a

/-- The payload of an RSN element: version 1, then the fields that are present.  The standard counts
each PMKID once (`pmkidUnit = 1`). -/
def rsnWire (pmkidUnit : Nat) (e : RsnElement.OfLists) : Bytes :=
  [1, 0] ++ optField (fun c => toLE c.cipherSuiteSelector) e.group_data_cipher_suite ++
  countedList 1 (fun c => toLE c.cipherSuiteSelector) e.pairwise_cipher_suite_list ++
  countedList 1 (fun c => toLE c.cipherSuiteSelector) e.akm_list ++
  optField (fun c => toLE c.bits) e.rsn_capbilities ++
  countedList pmkidUnit (fun p => p.val) e.pmkid_list ++
  optField (fun c => toLE c.cipherSuiteSelector) e.group_management_cipher_suite

/-- The lists fit their 16 bit byte counts. -/
def RsnSmall (e : RsnElement.OfLists) : Prop :=
  (∀ l, e.pairwise_cipher_suite_list = some l → l.length < 16384) ∧
  (∀ l, e.akm_list = some l → l.length < 16384) ∧
  (∀ l, e.pmkid_list = some l → l.length < 4096)

/-- No selector is the "unknown" variant holding the code of a named suite. -/
def RsnCanonical (e : RsnElement.OfLists) : Prop :=
  (∀ c, e.group_data_cipher_suite = some c → c.Canonical) ∧
  (∀ l, e.pairwise_cipher_suite_list = some l → ∀ c ∈ l, c.Canonical) ∧
  (∀ l, e.akm_list = some l → ∀ c ∈ l, c.Canonical) ∧
  (∀ c, e.group_management_cipher_suite = some c → c.Canonical)

/-- The last field is not an empty list, unless zero-length reads at the end of the input succeed. -/
def RsnEndOk [ScrollRule] (e : RsnElement.OfLists) : Prop :=
  (e.akm_list = none → ∀ l, e.pairwise_cipher_suite_list = some l → slack ≤ l.length) ∧
  (e.rsn_capbilities = none → ∀ l, e.akm_list = some l → slack ≤ l.length) ∧
  (e.group_management_cipher_suite = none → ∀ l, e.pmkid_list = some l → slack ≤ l.length)

/-- An optional list field as parsed: absent in both, or iterating gives exactly the items. -/
def SameList {α : Type} (r : Reader α) : Option ReadIterator → Option (List α) → Prop
  | none, none => True
  | some it, some l => Yields r it l
  | _, _ => False

/-- A parsed element has the same fields and list items as a given one. -/
def RsnSame [ScrollRule] (p : RsnElement.Parsed) (e : RsnElement.OfLists) : Prop :=
  p.group_data_cipher_suite = e.group_data_cipher_suite ∧
  SameList readCipherSuite p.pairwise_cipher_suite_list e.pairwise_cipher_suite_list ∧
  SameList readAkm p.akm_list e.akm_list ∧
  p.rsn_capbilities = e.rsn_capbilities ∧
  SameList readPmkid p.pmkid_list e.pmkid_list ∧
  p.group_management_cipher_suite = e.group_management_cipher_suite

end Verif.Spec
