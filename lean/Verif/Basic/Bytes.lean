/-!
# Bytes, fixed-size arrays and integer encodings
-/
namespace Verif

/-- A byte, Rust `u8`. -/
abbrev Byte := BitVec 8
/-- A byte slice, Rust `&[u8]`. -/
abbrev Bytes := List Byte

/-- A byte array of fixed length, Rust `[u8; n]`. -/
abbrev Arr (n : Nat) := { l : Bytes // l.length = n }

@[simp] theorem Arr.length_val {n : Nat} (a : Arr n) : a.val.length = n := a.property

/-- The all-zero array `[0u8; n]`. -/
def Arr.zero (n : Nat) : Arr n := ⟨List.replicate n 0, by simp⟩

/-- A MAC address (`mac_parser::MACAddress`). -/
abbrev Mac := Arr 6

/-- The `n` low bytes of a number, least significant first. -/
def leBytes : (n : Nat) → Nat → Bytes
  | 0, _ => []
  | n + 1, x => BitVec.ofNat 8 x :: leBytes n (x / 256)

/-- The number encoded by bytes, least significant first. -/
def leNat : Bytes → Nat
  | [] => 0
  | b :: bs => b.toNat + 256 * leNat bs

@[simp] theorem leBytes_length (n x : Nat) : (leBytes n x).length = n := by
  induction n generalizing x with
  | zero => rfl
  | succ n ih => simp [leBytes, ih]

theorem leNat_lt (bs : Bytes) : leNat bs < 256 ^ bs.length := by
  induction bs with
  | nil => simp [leNat]
  | cons b bs ih =>
    have hb : b.toNat < 256 := b.isLt
    simp only [leNat, List.length_cons, Nat.pow_succ]
    omega

theorem leNat_leBytes (n x : Nat) : leNat (leBytes n x) = x % 256 ^ n := by
  induction n generalizing x with
  | zero => simp [leBytes, leNat, Nat.mod_one]
  | succ n ih =>
    simp only [leBytes, leNat, ih, BitVec.toNat_ofNat]
    rw [show (2 : Nat) ^ 8 = 256 from rfl, Nat.pow_succ, Nat.mul_comm (256 ^ n) 256, Nat.mod_mul]

theorem leBytes_leNat (bs : Bytes) : leBytes bs.length (leNat bs) = bs := by
  induction bs with
  | nil => rfl
  | cons b bs ih =>
    have hb : b.toNat < 256 := b.isLt
    simp only [List.length_cons, leBytes, leNat]
    have h1 : (b.toNat + 256 * leNat bs) / 256 = leNat bs := by omega
    have h2 : BitVec.ofNat 8 (b.toNat + 256 * leNat bs) = b := by
      apply BitVec.eq_of_toNat_eq
      simp only [BitVec.toNat_ofNat]
      omega
    rw [h1, h2, ih]

/-- Little-endian encoding of a `w`-bit integer (`w` a multiple of 8), `to_le_bytes`. -/
def toLE {w : Nat} (x : BitVec w) : Bytes := leBytes (w / 8) x.toNat
/-- Big-endian encoding of a `w`-bit integer, `to_be_bytes`. -/
def toBE {w : Nat} (x : BitVec w) : Bytes := (toLE x).reverse
/-- `from_le_bytes`. -/
def fromLE (w : Nat) (bs : Bytes) : BitVec w := BitVec.ofNat w (leNat bs)
/-- `from_be_bytes`. -/
def fromBE (w : Nat) (bs : Bytes) : BitVec w := fromLE w bs.reverse

@[simp] theorem toLE_length {w : Nat} (x : BitVec w) : (toLE x).length = w / 8 := by simp [toLE]
@[simp] theorem toBE_length {w : Nat} (x : BitVec w) : (toBE x).length = w / 8 := by simp [toBE]

theorem fromLE_toLE {w : Nat} (h : w % 8 = 0) (x : BitVec w) : fromLE w (toLE x) = x := by
  apply BitVec.eq_of_toNat_eq
  have hx : x.toNat < 2 ^ w := x.isLt
  have hp : (256 : Nat) ^ (w / 8) = 2 ^ w := by
    rw [show (256 : Nat) = 2 ^ 8 from rfl, ← Nat.pow_mul]
    congr 1; omega
  simp only [fromLE, toLE, leNat_leBytes, BitVec.toNat_ofNat, hp, Nat.mod_mod]
  exact Nat.mod_eq_of_lt hx

theorem toLE_fromLE {w : Nat} (h : w % 8 = 0) (bs : Bytes) (hl : bs.length = w / 8) :
    toLE (fromLE w bs) = bs := by
  have hp : (256 : Nat) ^ (w / 8) = 2 ^ w := by
    rw [show (256 : Nat) = 2 ^ 8 from rfl, ← Nat.pow_mul]
    congr 1; omega
  have hb := leNat_lt bs
  rw [hl, hp] at hb
  simp only [toLE, fromLE, BitVec.toNat_ofNat, Nat.mod_eq_of_lt hb]
  rw [← hl, leBytes_leNat]

theorem fromBE_toBE {w : Nat} (h : w % 8 = 0) (x : BitVec w) : fromBE w (toBE x) = x := by
  simp [fromBE, toBE, fromLE_toLE h]

theorem toBE_fromBE {w : Nat} (h : w % 8 = 0) (bs : Bytes) (hl : bs.length = w / 8) :
    toBE (fromBE w bs) = bs := by
  simp [fromBE, toBE, toLE_fromLE h bs.reverse (by simpa using hl)]

theorem toLE_inj {w : Nat} (h : w % 8 = 0) {x y : BitVec w} (e : toLE x = toLE y) : x = y := by
  rw [← fromLE_toLE h x, ← fromLE_toLE h y, e]

theorem toLE_u8 (x : BitVec 8) : toLE x = [x] := by
  simp [toLE, leBytes]
theorem toBE_u8 (x : BitVec 8) : toBE x = [x] := by
  simp [toBE, toLE_u8]

/-- Every long enough input starts with the encoding of some integer. -/
theorem exists_toLE (w : Nat) (h : w % 8 = 0) {inp : Bytes} (hl : w / 8 ≤ inp.length) :
    ∃ (x : BitVec w) (rest : Bytes), inp = toLE x ++ rest := by
  refine ⟨fromLE w (inp.take (w / 8)), inp.drop (w / 8), ?_⟩
  rw [toLE_fromLE h _ (by simp; omega), List.take_append_drop]

theorem exists_toBE (w : Nat) (h : w % 8 = 0) {inp : Bytes} (hl : w / 8 ≤ inp.length) :
    ∃ (x : BitVec w) (rest : Bytes), inp = toBE x ++ rest := by
  refine ⟨fromBE w (inp.take (w / 8)), inp.drop (w / 8), ?_⟩
  rw [toBE_fromBE h _ (by simp; omega), List.take_append_drop]

/-- Every long enough input starts with some array. -/
theorem exists_arr (n : Nat) {inp : Bytes} (hl : n ≤ inp.length) :
    ∃ (a : Arr n) (rest : Bytes), inp = a.val ++ rest :=
  ⟨⟨inp.take n, by simp; omega⟩, inp.drop n, by simp⟩

end Verif
