import Verif.Conc.Calls
import Verif.Conc.Local
import Verif.Conc.Machine
import Verif.Conc.Prog
import Verif.Conc.Run
import Verif.Conc.Script
import Verif.Conc.SharedReader
import Verif.Conc.Whole
import Verif.Heap.Client
import Verif.Heap.Hidden
import Verif.Imp.Calls
import Verif.Imp.Commute
import Verif.Imp.Path
import Verif.Model.Mnemonic
import Verif.Model.PublicKey
import Verif.Proofs.Count
import Verif.Proofs.Fmt
import Verif.Proofs.Packed
import Verif.Proofs.RandInt
import Verif.Props.Address
import Verif.Props.Append
import Verif.Props.Arith
import Verif.Props.Arith2
import Verif.Props.Blocks
import Verif.Props.Callers
import Verif.Props.Careful
import Verif.Props.Chain
import Verif.Props.Client
import Verif.Props.Conc
import Verif.Props.Count
import Verif.Props.Crash
import Verif.Props.Curve
import Verif.Props.Depends
import Verif.Props.Errors
import Verif.Props.Expr
import Verif.Props.Front
import Verif.Props.FrontFixed
import Verif.Props.FuelWork
import Verif.Props.FixedWork
import Verif.Props.Generate
import Verif.Props.Heap
import Verif.Props.Import
import Verif.Props.Keys
import Verif.Props.LastWord
import Verif.Props.Laws
import Verif.Props.Lists
import Verif.Props.Local
import Verif.Props.Marks
import Verif.Props.Mnemonic
import Verif.Props.NetValue
import Verif.Props.Paths
import Verif.Props.Phrase
import Verif.Props.PhraseCount
import Verif.Props.PhraseWay
import Verif.Props.Program
import Verif.Props.PublicKey
import Verif.Props.RandomTests
import Verif.Props.Repair
import Verif.Props.RepairCount
import Verif.Props.RepairDiff
import Verif.Props.RepairErrors
import Verif.Props.RepairTwins
import Verif.Props.RepairPhrase
import Verif.Props.RepairPub
import Verif.Props.RepairResult
import Verif.Props.RepairSession
import Verif.Props.RepairSuccess
import Verif.Props.RepairThreads
import Verif.Props.Results
import Verif.Props.Roam
import Verif.Props.RoutineThreads
import Verif.Props.SeedSteps
import Verif.Props.SeedWay
import Verif.Props.Serial
import Verif.Props.SharedReader
import Verif.Props.Source
import Verif.Props.SourceTests
import Verif.Props.Threads
import Verif.Props.Unused
import Verif.Props.Ways
import Verif.Props.Wif
import Verif.Props.Words
import Verif.Props.Work
import Verif.Source.Attr
import Verif.Source.Exec
import Verif.Source.Files
import Verif.Source.Fuel
import Verif.Source.Init
import Verif.Source.Keys
import Verif.Source.Lex
import Verif.Source.Loops
import Verif.Source.Mnemonic
import Verif.Source.Parse
import Verif.Source.Print
import Verif.Source.Program
import Verif.Source.Pub
import Verif.Source.Quote
import Verif.Source.Repair
import Verif.Source.RepairKeys
import Verif.Source.RepairPhrase
import Verif.Source.RepairPub
import Verif.Source.Run
import Verif.Source.Session
import Verif.Source.Syntax
import Verif.Source.Trees
import Verif.Source.Value
import Verif.Tests
import Verif.Threads.Agree
import Verif.Threads.Own
import Verif.Threads.Rel
import Verif.Threads.Sound
import Verif.Threads.Tree
import Verif.Words.Checks
