import Verif.Go.Num

/-! Word list literals. -/

namespace Btc

/-- Words from their packed form: the minimal big-endian bytes of each number (no word starts with a zero
byte). -/
def unpackWords (ps : List Nat) : List GoString := ps.map natToBytes

end Btc
