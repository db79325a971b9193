import Verif.Crypto.Sha256

/-!
# RIPEMD-160, executable (for concrete witnesses only)
-/

namespace Btc.Ripemd160

open Btc.Sha256 (force)

def rol (x n : Nat) : Nat := (x <<< n ||| x >>> (32 - n)) % 4294967296

def not32 (x : Nat) : Nat := 4294967295 ^^^ x

/-- The five round functions. -/
def f : Nat → Nat → Nat → Nat → Nat
  | 0, x, y, z => x ^^^ y ^^^ z
  | 1, x, y, z => (x &&& y) ||| (not32 x &&& z)
  | 2, x, y, z => (x ||| not32 y) ^^^ z
  | 3, x, y, z => (x &&& z) ||| (y &&& not32 z)
  | _, x, y, z => x ^^^ (y ||| not32 z)

def KL : List Nat := [0x00000000, 0x5a827999, 0x6ed9eba1, 0x8f1bbcdc, 0xa953fd4e]
def KR : List Nat := [0x50a28be6, 0x5c4dd124, 0x6d703ef3, 0x7a6d76e9, 0x00000000]

def RL : List Nat := [
  0,1,2,3,4,5,6,7,8,9,10,11,12,13,14,15,
  7,4,13,1,10,6,15,3,12,0,9,5,2,14,11,8,
  3,10,14,4,9,15,8,1,2,7,0,6,13,11,5,12,
  1,9,11,10,0,8,12,4,13,3,7,15,14,5,6,2,
  4,0,5,9,7,12,2,10,14,1,3,8,11,6,15,13]
def RR : List Nat := [
  5,14,7,0,9,2,11,4,13,6,15,8,1,10,3,12,
  6,11,3,7,0,13,5,10,14,15,8,12,4,9,1,2,
  15,5,1,3,7,14,6,9,11,8,12,2,10,0,4,13,
  8,6,4,1,3,11,15,0,5,12,2,13,9,7,10,14,
  12,15,10,4,1,5,8,7,6,2,13,14,0,3,9,11]
def SL : List Nat := [
  11,14,15,12,5,8,7,9,11,13,14,15,6,7,9,8,
  7,6,8,13,11,9,7,15,7,12,15,9,11,7,13,12,
  11,13,6,7,14,9,13,15,14,8,13,6,5,12,7,5,
  11,12,14,15,14,15,9,8,9,14,5,6,8,6,5,12,
  9,15,5,11,6,8,13,12,5,12,13,14,11,8,5,6]
def SR : List Nat := [
  8,9,9,11,13,15,15,5,7,7,8,11,14,14,12,6,
  9,13,15,7,12,8,9,11,7,7,12,7,6,15,13,11,
  9,7,15,11,8,6,6,14,12,13,5,14,13,13,7,5,
  15,5,8,11,14,14,6,14,6,9,12,9,12,5,15,8,
  8,5,12,9,12,5,14,6,8,13,6,5,15,13,11,11]

structure St where
  a : Nat
  b : Nat
  c : Nat
  d : Nat
  e : Nat

def init : St := ⟨0x67452301, 0xefcdab89, 0x98badcfe, 0x10325476, 0xc3d2e1f0⟩

/-- One step with round function `fi`, constant `k`, message word `x`, shift `s`. -/
def step (fi k x s : Nat) (t : St) : St :=
  force ((rol ((t.a + f fi t.b t.c t.d + x + k) % 4294967296) s + t.e) % 4294967296) fun nb =>
  force (rol t.c 10) fun nd =>
  ⟨t.e, nb, t.b, nd, t.d⟩

/-- Runs the steps `j, j+1, …` of one line; `left` selects the order of round functions. -/
def line (left : Bool) (block : List Nat) : Nat → List Nat → List Nat → St → St
  | j, r :: rs, s :: ss, t =>
    line left block (j + 1) rs ss
      (step (if left then j / 16 else 4 - j / 16) ((if left then KL else KR).getD (j / 16) 0) (block.getD r 0) s t)
  | _, _, _, t => t

def compress (h : St) (block : List Nat) : St :=
  let l := line true block 0 RL SL h
  let r := line false block 0 RR SR h
  ⟨(h.b + l.c + r.d) % 4294967296, (h.c + l.d + r.e) % 4294967296, (h.d + l.e + r.a) % 4294967296,
   (h.e + l.a + r.b) % 4294967296, (h.a + l.b + r.c) % 4294967296⟩

/-- Little-endian 32-bit words. -/
def words : Bytes → List Nat
  | a :: b :: c :: d :: rest =>
    (((d.toNat * 256 + c.toNat) * 256 + b.toNat) * 256 + a.toNat) :: words rest
  | _ => []

def le32 (w : Nat) : Bytes :=
  [UInt8.ofNat w, UInt8.ofNat (w / 256), UInt8.ofNat (w / 65536), UInt8.ofNat (w / 16777216)]

def pad (m : Bytes) : Bytes :=
  m ++ [128] ++ List.replicate ((119 - m.length % 64) % 64) 0 ++
    le32 (m.length * 8 % 4294967296) ++ le32 (m.length * 8 / 4294967296)

def blocks : Nat → List Nat → St → St
  | 0, _, s => s
  | n + 1, ws, s => blocks n (ws.drop 16) (compress s (ws.take 16))

def ripemd160 (m : Bytes) : Bytes :=
  let ws := words (pad m)
  let s := blocks (ws.length / 16) ws init
  le32 s.a ++ le32 s.b ++ le32 s.c ++ le32 s.d ++ le32 s.e

theorem length_ripemd160 (m : Bytes) : (ripemd160 m).length = 20 := rfl

end Btc.Ripemd160
