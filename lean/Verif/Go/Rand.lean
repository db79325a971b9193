import Verif.Go.Num

/-!
# `crypto/rand.Int`

`rand.Reader` is modelled by the finite list of bytes it will still deliver; when they run out, `io.ReadFull`
fails. Every execution that returns has read finitely many bytes, so the finite lists cover all of them.
-/

namespace Btc

/-- The bytes the random source has left. -/
abbrev Reader := List UInt8

/-- `io.ReadFull(rand, buf)` with `len(buf) = k`. -/
def readFull (k : Nat) (rd : Reader) : Res (Bytes × Reader) :=
  if k ≤ rd.length then .ok (rd.take k, rd.drop k) else .err .randRead

/-- `bytes[0] &= uint8(int(1<<b) - 1)`. -/
def maskFirst (b : Nat) : Bytes → Bytes
  | [] => []
  | x :: xs => UInt8.ofNat (x.toNat % 2 ^ b) :: xs

/-- The rejection loop of `rand.Int`. -/
def randLoop (max k b : Nat) : Nat → Reader → Res (Nat × Reader)
  | 0, _ => .panic .outOfFuel
  | fuel + 1, rd =>
    match readFull k rd with
    | .err e => .err e
    | .panic p => .panic p
    | .ok (buf, rd') =>
      let n := bytesToNat (maskFirst b buf)
      if n < max then .ok (n, rd') else randLoop max k b fuel rd'

/-- `rand.Int(rand.Reader, max)` for `max ≥ 1` (the code only calls it with positive bounds):
`bitLen` of `max-1`, `k` bytes, the top byte masked to `b` bits, retry until `n < max`.
The fuel `len + 1` is never exhausted, each round consumes `k ≥ 1` bytes. -/
def randInt (rd : Reader) (max : Nat) : Res (Nat × Reader) :=
  let bitLen := Nat.size (max - 1)
  if bitLen = 0 then .ok (0, rd)
  else
    let k := (bitLen + 7) / 8
    let b := if bitLen % 8 = 0 then 8 else bitLen % 8
    randLoop max k b (rd.length + 1) rd

end Btc
