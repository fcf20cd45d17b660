import Verif.Basic.Res
import Verif.Basic.Bytes
/-!
# `/repo/src/crypto/michael.rs`

`u32::to_be` is modelled as on a little-endian machine, where it swaps the bytes.
-/
namespace Verif

/-- `&bytes[off..][..n]`. -/
def slice (bytes : Bytes) (off n : Nat) : Res Bytes :=
  if off ≤ bytes.length ∧ n ≤ bytes.length - off then .ok ((bytes.drop off).take n) else .panic

/-- `xswap`, /repo/src/crypto/michael.rs:1-3. -/
def xswap (l : BitVec 32) : BitVec 32 :=
  ((l &&& 0xff00ff00#32) >>> 8) ||| ((l &&& 0x00ff00ff#32) <<< 8)

/-- `michael_block_function`, /repo/src/crypto/michael.rs:5-15. -/
def michaelBlockFunction (l r : BitVec 32) : BitVec 32 × BitVec 32 :=
  let r := r ^^^ l.rotateLeft 17
  let l := l + r
  let r := r ^^^ xswap l
  let l := l + r
  let r := r ^^^ l.rotateLeft 3
  let l := l + r
  let r := r ^^^ l.rotateRight 2
  let l := l + r
  (l, r)

/-- `u32::to_be` on a little-endian machine. -/
def u32ToBe (x : BitVec 32) : BitVec 32 := fromBE 32 (toLE x)

/-- The loop body, /repo/src/crypto/michael.rs:24-29. -/
def michaelStep (bytes : Bytes) (s : BitVec 32 × BitVec 32) (i : Nat) : Res (BitVec 32 × BitVec 32) := do
  let block ← slice bytes (i * 4) 4
  pure (michaelBlockFunction (s.1 ^^^ fromLE 32 block) s.2)

/-- `michael`, /repo/src/crypto/michael.rs:17-44. -/
def michael (key : BitVec 64) (bytes : Bytes) : Res (BitVec 64) := do
  let l := u32ToBe ((key >>> 32).setWidth 32)
  let r := u32ToBe (key.setWidth 32)
  let blocks := bytes.length / 4
  let left := bytes.length % 4
  let (l, r) ← (List.range blocks).foldlM (michaelStep bytes) (l, r)
  let tail ← slice bytes (blocks * 4) left
  let block := ((tail ++ List.replicate (4 - left) 0).set left 0x5a)
  let (l, r) := michaelBlockFunction (l ^^^ fromLE 32 block) r
  let (l, r) := michaelBlockFunction l r
  pure (fromBE 64 (toLE l ++ toLE r))

end Verif
