import Verif.Model.Elements.Core
/-!
# Elements on the wire: specification
-/
namespace Verif.Spec

/-- The wire form of a raw element: id, length, contents. -/
def tlv (e : RawElement) : Bytes := e.tlv_type :: BitVec.ofNat 8 e.slice.length :: e.slice

/-- The raw element that carries a payload under an element ID: extension elements have id 255 and the
extension id as first content byte, vendor elements have id 221 and the vendor prefix first. -/
def rawOf : ElementID → Bytes → RawElement
  | .Id i, p => ⟨i, p⟩
  | .ExtId x, p => ⟨255, x :: p⟩
  | .VendorSpecific pfx, p => ⟨221, pfx ++ p⟩

variable [ScrollRule]

/-- The chain item `i` stands for the raw element `e`: its object writes exactly the payload, measures
it correctly, and the contents fit in 255 bytes.  `extra` (0 or `slack`) is how many bytes of
buffer beyond the written ones writing it requires. -/
inductive ItemOf : ChainItem → RawElement → Nat → Prop where
  | raw (e : RawElement) (h : e.slice.length ≤ 255) : ItemOf (.raw e) e (slack - e.slice.length)
  | typed (e : Elem) (p : Bytes) (n : Nat) (hw : Emits e.obj.write p n)
      (hn : n ≤ p.length + slack) (hm : e.obj.measure = p.length)
      (hl : (rawOf e.id p).slice.length ≤ 255) :
      ItemOf (.typed e) (rawOf e.id p) (max n slack - p.length)

/-- The chain stands for this list of raw elements; the number is the `extra` of the last one. -/
inductive ChainOf : Chain → List RawElement → Nat → Prop where
  | last {i : ChainItem} {e : RawElement} {x : Nat} (h : ItemOf i e x) : ChainOf (.last i) [e] x
  | link {i : ChainItem} {e : RawElement} {x y : Nat} {c : Chain} {l : List RawElement}
      (h : ItemOf i e x) (t : ChainOf c l y) : ChainOf (.link i c) (e :: l) y

/-- The measured contents of the element do not fit the length byte. -/
def Overlong : ChainItem → Prop
  | .raw e => 255 < e.slice.length
  | .typed e => 255 + 2 < e.wrappedMeasure

/-- Some element is over-long and all before it are fine. -/
inductive BadChain : Chain → Prop where
  | last {i : ChainItem} (h : Overlong i) : BadChain (.last i)
  | here {i : ChainItem} {c : Chain} (h : Overlong i) : BadChain (.link i c)
  | later {i : ChainItem} {e : RawElement} {x : Nat} {c : Chain} (h : ItemOf i e x)
      (t : BadChain c) : BadChain (.link i c)

/-- A byte string at which no further raw element can be read: fewer than two bytes left, or fewer bytes
left than the length byte says, or (only with the strict `scroll` rule) nothing after the length. -/
inductive NoElement : Bytes → Prop where
  | short (bs : Bytes) (h : bs.length < 2) : NoElement bs
  | cut (t l : Byte) (rest : Bytes) (h : rest.length < l.toNat) : NoElement (t :: l :: rest)
  | strict (t l : Byte) (h : slack = 1) : NoElement [t, l]

/-- The list of the elements at the start of the bytes, as many as there are. -/
inductive ElementsOf : Bytes → List RawElement → Prop where
  | stop {bs : Bytes} (h : NoElement bs) : ElementsOf bs []
  | elem (e : RawElement) {rest : Bytes} {l : List RawElement} (hl : e.slice.length ≤ 255)
      (h : ¬ NoElement (tlv e ++ rest)) (t : ElementsOf rest l) : ElementsOf (tlv e ++ rest) (e :: l)

/-- Does a raw element have the given ID? -/
def HasId (e : RawElement) : ElementID → Prop
  | .Id i => e.tlv_type = i
  | .ExtId x => e.tlv_type = 255 ∧ ∃ p, e.slice = x :: p
  | .VendorSpecific pfx => e.tlv_type = 221 ∧ ∃ p, e.slice = pfx ++ p

/-- The payload of a raw element under an ID: what follows the extension id or the vendor prefix. -/
def contents : ElementID → RawElement → Option Bytes
  | .Id i, e => if e.tlv_type = i then some e.slice else none
  | .ExtId x, e =>
    if e.tlv_type = 255 then
      match e.slice with
      | [] => none
      | y :: p => if y = x then some p else none
    else none
  | .VendorSpecific pfx, e =>
    if e.tlv_type = 221 ∧ e.slice.take pfx.length = pfx then some (e.slice.drop pfx.length) else none

/-- What parsing a payload as the given kind gives (`none`: an error).  With the strict rule of
`scroll` an empty payload cannot be parsed. -/
def parsed {α : Type} (k : ElementKind α) (p : Bytes) : Option α :=
  if p.length < slack then none
  else match k.read p with
    | .ok (a, _) => some a
    | _ => none

end Verif.Spec
