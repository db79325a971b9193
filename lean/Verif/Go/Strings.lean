import Verif.Go.Basic

/-!
# `strings.Split`, `strings.Join`, ASCII lower case
-/

namespace Btc

/-- `strings.Split(s, " ")`: always at least one piece; consecutive separators give empty pieces. -/
def splitSpace : GoString → List GoString
  | [] => [[]]
  | c :: cs =>
    if c = 32 then [] :: splitSpace cs
    else
      match splitSpace cs with
      | [] => [[c]]
      | w :: ws => (c :: w) :: ws

/-- `strings.Join(ws, " ")`. -/
def joinSpace : List GoString → GoString
  | [] => []
  | [w] => w
  | w :: ws => w ++ 32 :: joinSpace ws

/-- ASCII lower case of one byte. -/
def lowerByte (c : UInt8) : UInt8 := if 65 ≤ c.toNat ∧ c.toNat ≤ 90 then UInt8.ofNat (c.toNat + 32) else c

/-- The lower case of a text, on its ASCII letters only. -/
def asciiLower (s : GoString) : GoString := s.map lowerByte

end Btc
