import Verif.Props.Heap
import Verif.Source.Program
import Verif.Source.Quote

/-!
# The package variables and `init`
-/

namespace Btc.Source

open Mem

/-- The package variables before `init`; `secp256k1` is `Heap.curve`. -/
def packageVars : List Decl → List (Nat × Value)
  | .var x (.un _ (.name t)) :: ds => if t = id! "Network" then (x, .net none) :: packageVars ds else packageVars ds
  | _ :: ds => packageVars ds
  | [] => []

/-- The state in which a program starts. -/
def before (ds : List Decl) (rd : Reader) : State :=
  ⟨⟨[], [], [], [], ⟨none, none, none, none, none, none, none⟩⟩, [], rd, [], packageVars ds⟩

/-- The state after `init`. -/
def ready (rd : Reader) : State :=
  ⟨initHeap [MainNetwork, TestNetwork], [], rd, [], [(id! "MainNetwork", .net (some 0)), (id! "TestNetwork", .net (some 1))]⟩

/-- Running the text of `init` (btc.go:17-37). -/
theorem run_init (H : Hashes) (E : EcdsaM) (n : Nat) (rd : Reader) :
    runFunc H E program (n + 1) 0 (id! "init") [] (before program rd) = .ok [] (ready rd) := by
  kernel_rfl

end Btc.Source
