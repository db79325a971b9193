import Verif.Go.Basic

/-!
# SHA-256 (FIPS 180-4), executable

Used only to evaluate concrete witnesses; all general theorems quantify over every hash function of the right
output length. Words are natural numbers below `2^32`, so that the kernel computes with its `Nat` arithmetic.
-/

namespace Btc.Sha256

def rotr (x n : Nat) : Nat := (x >>> n ||| x <<< (32 - n)) % 4294967296

def K : List Nat := [
  0x428a2f98,0x71374491,0xb5c0fbcf,0xe9b5dba5,0x3956c25b,0x59f111f1,0x923f82a4,0xab1c5ed5,
  0xd807aa98,0x12835b01,0x243185be,0x550c7dc3,0x72be5d74,0x80deb1fe,0x9bdc06a7,0xc19bf174,
  0xe49b69c1,0xefbe4786,0x0fc19dc6,0x240ca1cc,0x2de92c6f,0x4a7484aa,0x5cb0a9dc,0x76f988da,
  0x983e5152,0xa831c66d,0xb00327c8,0xbf597fc7,0xc6e00bf3,0xd5a79147,0x06ca6351,0x14292967,
  0x27b70a85,0x2e1b2138,0x4d2c6dfc,0x53380d13,0x650a7354,0x766a0abb,0x81c2c92e,0x92722c85,
  0xa2bfe8a1,0xa81a664b,0xc24b8b70,0xc76c51a3,0xd192e819,0xd6990624,0xf40e3585,0x106aa070,
  0x19a4c116,0x1e376c08,0x2748774c,0x34b0bcb5,0x391c0cb3,0x4ed8aa4a,0x5b9cca4f,0x682e6ff3,
  0x748f82ee,0x78a5636f,0x84c87814,0x8cc70208,0x90befffa,0xa4506ceb,0xbef9a3f7,0xc67178f2]

/-- Hash state: eight 32-bit words. -/
structure St where
  a : Nat
  b : Nat
  c : Nat
  d : Nat
  e : Nat
  f : Nat
  g : Nat
  h : Nat

def init : St :=
  ⟨0x6a09e667,0xbb67ae85,0x3c6ef372,0xa54ff53a,0x510e527f,0x9b05688c,0x1f83d9ab,0x5be0cd19⟩

/-- Evaluates its first argument before continuing (keeps kernel evaluation strict). -/
def force {α : Type} (n : Nat) (k : Nat → α) : α :=
  match n with
  | 0 => k 0
  | m + 1 => k (m + 1)

def round (s : St) (kw : Nat) : St :=
  force ((s.h + (rotr s.e 6 ^^^ rotr s.e 11 ^^^ rotr s.e 25) +
      ((s.e &&& s.f) ^^^ ((4294967295 ^^^ s.e) &&& s.g)) + kw) % 4294967296) fun t1 =>
  force ((t1 + (rotr s.a 2 ^^^ rotr s.a 13 ^^^ rotr s.a 22) +
      ((s.a &&& s.b) ^^^ (s.a &&& s.c) ^^^ (s.b &&& s.c))) % 4294967296) fun a =>
  force ((s.d + t1) % 4294967296) fun e =>
  ⟨a, s.a, s.b, s.c, e, s.e, s.f, s.g⟩

/-- One more schedule word; `ws` is newest first. -/
def nextW (ws : List Nat) : Nat :=
  let a := ws.getD 14 0
  let b := ws.getD 1 0
  (ws.getD 15 0 + (rotr a 7 ^^^ rotr a 18 ^^^ a >>> 3) + ws.getD 6 0 +
    (rotr b 17 ^^^ rotr b 19 ^^^ b >>> 10)) % 4294967296

def expand : Nat → List Nat → List Nat
  | 0, ws => ws
  | n + 1, ws => force (nextW ws) fun w => expand n (w :: ws)

def rounds : List Nat → List Nat → St → St
  | k :: ks, w :: ws, s => rounds ks ws (round s (k + w))
  | _, _, s => s

def compress (s : St) (block : List Nat) : St :=
  let t := rounds K (expand 48 block.reverse).reverse s
  ⟨(s.a + t.a) % 4294967296, (s.b + t.b) % 4294967296, (s.c + t.c) % 4294967296, (s.d + t.d) % 4294967296,
   (s.e + t.e) % 4294967296, (s.f + t.f) % 4294967296, (s.g + t.g) % 4294967296, (s.h + t.h) % 4294967296⟩

/-- Big-endian 32-bit words of a byte list. -/
def words : Bytes → List Nat
  | a :: b :: c :: d :: rest =>
    (((a.toNat * 256 + b.toNat) * 256 + c.toNat) * 256 + d.toNat) :: words rest
  | _ => []

def be32 (w : Nat) : Bytes :=
  [UInt8.ofNat (w / 16777216), UInt8.ofNat (w / 65536), UInt8.ofNat (w / 256), UInt8.ofNat w]

/-- Message padding. -/
def pad (m : Bytes) : Bytes :=
  m ++ [128] ++ List.replicate ((119 - m.length % 64) % 64) 0 ++
    be32 (m.length * 8 / 4294967296) ++ be32 (m.length * 8 % 4294967296)

/-- Processes `n` blocks of 16 words. -/
def blocks : Nat → List Nat → St → St
  | 0, _, s => s
  | n + 1, ws, s => blocks n (ws.drop 16) (compress s (ws.take 16))

def sha256 (m : Bytes) : Bytes :=
  let ws := words (pad m)
  let s := blocks (ws.length / 16) ws init
  be32 s.a ++ be32 s.b ++ be32 s.c ++ be32 s.d ++ be32 s.e ++ be32 s.f ++ be32 s.g ++ be32 s.h

theorem length_sha256 (m : Bytes) : (sha256 m).length = 32 := rfl

end Btc.Sha256
