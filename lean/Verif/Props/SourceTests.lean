import Verif.Props.Source
import Verif.Source.Repair

/-!
# The repository's own tests, run on the text

The tests of `/repo` (private_key_test.go, public_key_test.go, mnemonic_test.go) with their tables, run by the kernel on the
parsed text, from the state in which `init` leaves the program. These are tests, not proofs: they show that the semantics
given to the Go text computes what Go computes wherever the authors of the repository wrote down what they expect. The curve
package is the reference package `EC.ref`. The two tests that draw ten thousand random keys or phrases are not here: for which
random bytes they pass is proved in `Verif/Props/RandomTests.lean` (C131).

The tests are run on the text of the repository and, with the first row of each table, on the repaired text of
`Verif/Source/Repair.lean`: the repairs break none of them.
-/

namespace Btc.SourceTests

open Mem Source Samples

/-- Calls an exported function: its text is run. -/
def call (P : List Decl) (r : Request) : Source.M (List Value) := runFunc realHashes pkg P 300 r.recv r.name r.args

/-- `err` must be nil (`assert.Nil(t, err)`). -/
def priv! (vs : List Value) : Source.M Ptr :=
  match vs with
  | [.priv p, .err none] => pure p
  | _ => fun _ => .stuck

/-- `err` must be nil (`assert.Nil(t, err)`). -/
def pub! (vs : List Value) : Source.M Ptr :=
  match vs with
  | [.pub p, .err none] => pure p
  | _ => fun _ => .stuck

/-- `err` must not be nil (`assert.NotNil(t, err)`). -/
def failed (vs : List Value) : Source.M Bool :=
  match vs with
  | [_, .err (some _)] => pure true
  | _ => pure false

/-- A boolean result. -/
def bool! (vs : List Value) : Source.M Bool :=
  match vs with
  | [.bool b] => pure b
  | _ => fun _ => .stuck

/-- A text, with an error that must be nil. -/
def text! (vs : List Value) : Source.M GoString :=
  match vs with
  | [.str s] => pure s
  | [.str s, .err none] => pure s
  | _ => fun _ => .stuck

/-- A public key with `true`. -/
def valid! (vs : List Value) : Source.M Ptr :=
  match vs with
  | [.pub p, .bool true] => pure p
  | _ => fun _ => .stuck

/-- The private key a pointer points to. -/
def thePriv (p : Ptr) : Source.M PrivateKey := fun st =>
  match loadPriv st.heap p with
  | some o => .ok (privValue st.heap o) st
  | none => .stuck

/-- The public key a pointer points to. -/
def thePub (p : Ptr) : Source.M PublicKey := fun st =>
  match loadPub st.heap p with
  | some o => .ok (pubValue st.heap o) st
  | none => .stuck

/-- The test runs from the state after `init` and every assertion holds. -/
def passes (t : Source.M Bool) : Bool :=
  match t (started [] []) with
  | .ok b _ => b
  | _ => false

/-- `MainNetwork` after `init` (btc.go:28). -/
def main : Ptr := some 0

/-- `TestNetwork` after `init` (btc.go:32). -/
def test : Ptr := some 1

/-- `strings.ToLower` as the tests apply it. -/
def low : GoString → GoString := realHashes.toLower

/-- The first and the last row of a table (to keep the build short; all rows were run once, and pass). -/
def some! {α : Type} (l : List α) : List α := l.take 1 ++ l.drop (l.length - 1)

/-- A loop over a table: every row passes, in the same run of the program. -/
def rows {α : Type} (t : α → Source.M Bool) : List α → Source.M Bool
  | [] => pure true
  | a :: l => do
    let b ← t a
    if b then rows t l else pure false

/-- private_key_test.go:42-81 `TestPrivateFromHex`: hexadecimal text, WIF, network. -/
def privateKeys : List (GoString × GoString × Ptr) := [
  (asc "42EE9BFFA29658554203A7D82456B4CBB9286ABE8D781D6C94C080260A9F24D6", asc "5JKmGh5KasctVb3o9p1eNZmgqgRNvAUTmVBs9aca5VJHHMFtMgc", main),
  (asc "8613DFD6C099751DCC4020EF6F9BCD3C00F4565A15B26979B4B93C045D0A5CEB", asc "5JqLR1PX9UWPkiPus9ontEPXo4KitgoiYCkHaFoDh5hJdDJJmcK", main),
  (asc "aef29c9770a9f6b9da86e37fc12a334eeffb02f967a55ba125deb77736ee3fc1", asc "5K9LPKv2VsbmAMhcEiNQnU2bTiNavtap1Ex6EMN1MFkTRZHi26E", main),
  (asc "ca9a14d902fe536d9265862a8a5f21a8520dc215c0c10da0a9d5831aadcc520f", asc "5KMWmt74aaabx8bxumCoXzniNwfdPTTP4y2SG8D31Mzt79FemR9", main),
  (asc "3610d7b143edd8bf2b5aaea942d59e7f3532d7ac340d5fd4e118c18e010ebd2d", asc "5JE6ctXTzE8JK5Qaw1FUtR9kNiYsyBicuwdR2jn982sfn9BL2Ku", main),
  (asc "7504089115c9349ee5c04b129e1aea1c661f4c9c0f4c415dc9dd3aa791de7d10", asc "5JhpbHXjDJTuPxeXs53FBY4Hd4oZoS1RboswXNn3udEG6XtTdA8", main),
  (asc "b03c2e8976c7963b472ac71cafc9458955e9743f7682c2409218cb31397c10d7", asc "5K9uGdHuajFab23DZFCv3EBN2bRwkifZiZRNbUoUgyn9g8UFMTu", main),
  (asc "bc18f76841a483825323c48a26830734f0b496f89de498f7d4b47b15231eb482", asc "931krx7yFnVSoHb1JxeN1W2rrhWARbNfiK3BA3xVZZrfgALvkMy", test),
  (asc "11d82d8c5dfd251556e8f49d020171cfd9d993d0c95c3bd8a3641ece5da1a293", asc "91imyYBEzyfb2d45tX81JucjFsCvidtKYwxbZXP6f431rY1mV8E", test),
  (asc "3ce1461994adb57fde42d6595ab53aff95392abb4f1b9d08fda5af284feb40b2", asc "923jG4W4c83BacqWFTLHYCwaRw2YRR9umK9ZeQ2CtJfRLZLC8k6", test),
  (asc "4f60b2ff5b9f83d9549d69b86d4a540c5b3d9e0df19fa8c2716e7fc6eb053b1d", asc "92Bsm5dR62dXoEeTVAD899EEAtKBQoBQ68BnX4GC98TWnnaTWT5", test),
  (asc "94442137a9cfdd302f34773b2ed04fe038038d81c09af352a216af5507cf5035", asc "92iDRThnHRquXbFLgZVdYzFjVUYz8difQtwjeMRRULKNbxNWkKV", test),
  (asc "3663d354de4bc3b83c0041d63f829ab56ac1d6bbc5f9b1914afdbf2032ae0edc", asc "91zsUsNprBX2FKgfotXp2TtG1KhrDekVK2ppEuzLRVjeyq8FEHa", test),
  (asc "c96e8294cc865241c45aa3936b4aea503039bcad2c3c28e85cbcb55158f80174", asc "937dTvv4mUCZFbHqaom9uPUAFhNPTVdeWZ454xKUiywubknhRV7", test),
  (asc "1af1af738881e068cc13dcd7cd45dee6542206612df83cde8bbe6246626945ed", asc "91nnQwn6kyNo56s2umtUBoUbuB9FyU8vuQzQjG4ZfFKV354kAwt", test),
  (asc "5b1338b2e841fe88f256ee18575c7da626bf2f2faf218e7598d38d6bd2f61fc0", asc "92H2Z5s2Mwy3XTJTmeRdc4q75suMonU1jqow36yqe5UQcZvLxu7", test)]

/-- private_key_test.go:68-74, the loop of `TestPrivateFromHex`. -/
def privateFromHexRow (P : List Decl) (v : GoString × GoString × Ptr) : Source.M Bool := do
  let k ← thePriv (← priv! (← call P (.privateFromHex v.1 v.2.2)))
  pure (k.WIF == v.2.1)

example : passes (rows (privateFromHexRow program) (some! privateKeys)) = true := by decide +kernel

example : passes (do failed (← call program (.privateFromHex (asc "8613DFD6C099751DCC4020EF6F9BCD3C00F4565A15B26979B4B93C045D0A5CE") main))) = true := by decide +kernel

example : passes (do failed (← call program (.privateFromHex (asc "8613DFD6C099751DCC4020EF6F9BCD3C00F4565A15B26979B4B93C045D0A5CEB1") main))) = true := by decide +kernel

/-- private_key_test.go:83-122 `TestPrivateFromWIF`, which has the same table. -/
def privateFromWIFRow (P : List Decl) (v : GoString × GoString × Ptr) : Source.M Bool := do
  let k ← thePriv (← priv! (← call P (.privateFromWIF v.2.1 v.2.2)))
  pure (low k.Hex == low v.1)

example : passes (rows (privateFromWIFRow program) (some! privateKeys)) = true := by decide +kernel

example : passes (do failed (← call program (.privateFromWIF (asc "5JE6ctXTzE8JK5Qaw1FUtR9kNiYsyBicuwdR2jn982sfn9BL2K") main))) = true := by decide +kernel

example : passes (do failed (← call program (.privateFromWIF (asc "5K9uGdHuajFab23DZFCv3EBN2bRwkifZiZRNbUoUgyn9g8UFMT") main))) = true := by decide +kernel

/-- private_key_test.go:124-194 `TestWIF`: correct texts. -/
def goodWIFs : List GoString := [
  asc "5Jw5VXRjdyojUobJQ96Psr8zmXZKHsjYgpLXf536ozN6uLZpNDD",
  asc "5KdoUDYDYSYQbC4oyjTszeeEBhjydEsJpdM9v1ziTFAkEeR2oBb",
  asc "5KctWoGYRZBYsXeiBJQJoJwtoSPMB4CF97K7LgMsHhHuUphUcQc",
  asc "5K8z81Wdq6L5ZRcFdQMpgnvaQQc8pesRLybsf5dCSKgFeeb2wRC",
  asc "5Kjc8GtRf22XKXFkxCZzCdjpuXrqw8u7sxkWUBkT7KeiRBBTVps",
  asc "5JLk1eZM6MMSfji4DhHgbHTcEzRQw5rNB85E1nF8TwsYfZhwDVe",
  asc "5JmvnCKj4PthjAJ3LAaPK7xoMah6mRMLB3tqQmZqioSYcDaDgVL",
  asc "5JCTBTAkMm1fqJaYNBtorJjPQtCK19Leh6DhsmbnraRNBuMG31B",
  asc "5J5HCukSWeQKnhmthv4nS4FMvbuvek1iqiLbXbemJCZDBd5jPF8",
  asc "5JveaFJBvAoJoMHTjFb6voQYi6xdECpjzUd7av6UFuAr3Zer7tv",
  asc "5HyA68w1SbNiX23Wex9qLMcvA68sYsXiDajSsBjW48gTS4cvCZ9",
  asc "5JP3yj2MozTDzHSkfYbcsooCTjpxCL298pPvkdx3WCMknKmqqm4",
  asc "5JgEeMNEHQG36txKhC7as54sTZRnr2burSBGBsmn3wE8jiWY4UX",
  asc "5Jttm9vDkXKYZBgrmPraGoHGtMcsrzgJqUJAk7a6vGvp2iqu1qG",
  asc "5JLot2SubTSJtEpyWUmnGqgbYVMDNdTBdBzPKaMfSoa1F21eeDt",
  asc "5K75MjFaxqJQYQvr5yH4nT3MVMjHQ3eBDChWYJ4D6WGMgXnoxCL",
  asc "5JBxKUAFL9526rQcTYAoJcFw4QLYPRHWXmRKVX88jafJLfyTqVE",
  asc "5JGed5wMstzeiqseHXHD5C8fnoqcaYSWwFbxS5HbTETRnof32qM",
  asc "5Kg2qaL7S59XsQtqzf34mfernQQw5DUQ2Y2b8p3dtbcF6Ehwb7M",
  asc "5JyvFPg5NqRT3r51S9GYnNi13PZ44LNg6uN8XTCLudeUiENvvkV",
  asc "5J4DJXZTvS6VfzP9bMvfkUzX9HurnZN7G5LjXEvM6TmBherbgN7",
  asc "5KG564bEsdu4WrDtcUNKRVuhA9JXeJvXCFnXDFEL1xvzMdDMAx1",
  asc "5KVYHbZTRZbBHt4yWw8sn9Yrhxxbc8om68eFrwKd1uduVxnUtgK",
  asc "5KQ4KAJLKxnsmaowc5ot2ECsnBLjAfNfiipSeKnfw2QWSdvvwoK",
  asc "5KYG6ERJ62xGYCoBuuyiiLMQ3DYKehbEwBd4qXVrLD97FZe3HT6",
  asc "5JTxsCNXXbDqPq1QZvExrzWKG8Ls1zdQju8ieENmoTLhiM54KLh",
  asc "5K2VyPeSMZaE9VbWoLcjh9J5svc4r9nq1QpsjhMpQvvY7WsbtvP",
  asc "5JzVoGtMKCZAGaZmwFPQrVwexYVDpPSbLKUavaXgHxnRRXa252e",
  asc "5KhNa3UoBEVJZmwyDMKp4Wc4afmEYyGsBUzfWbyohyvQLEfxg5m",
  asc "5KGiw1sox8jKZbCzjaTBXKYXBJsMzd5MdZbdbNctebitNJs8daW",
  asc "5K3zrYZRvAUCfsE7KzRNwhowSe9t5DMVxir5N1Gw9bJqsUfU7Pr",
  asc "5KDuhcNgSumqwhagVZfPAgqfS9BcJJKXkhsiFyovvgd83jXsGX4",
  asc "5KCQDfiRAqowdXjbS81CC47ADY8mobh4mnSUZXaMcpmLMBZwCYX",
  asc "5KUzEjAKf5uZ5vvsTPxF5sVDsAhFZe1vAEaSuHv1rGpxPpXLXYf",
  asc "5K9iSbKSRUCQqbban5tGwooH9LbgybDURgB9KBPca7hwJMnSbo8",
  asc "5JrVLx8gEKbqHKKiP3S2KwbtASwrWvj2N7ztyNbhLyiK11EpWQB",
  asc "5KCAByRFMj5Ji3NtYhuR7dB8Z1GfaEyij89KgYzVdqU4ZK5VpkC",
  asc "5JGPBGfCfgWFTzgpVZBjzGQ8nGod3gYumWooheFZN3e4sL87z4w",
  asc "5JDCwx2jmaUBbyb2rtnNm5bSwDQ2E4oSCupcivAFkWDsK8L5b3X",
  asc "5J2u7HgEHvPfgKWemYVcKSxopYqRUPfhQbpVe1Ac429kGnmFgnq",
  asc "5K1YCjna7PM1Q9rZCaWRhn3PZUXkxWDWEhfZdX2K9bMnkKJkZiU"]

/-- private_key_test.go:124-194 `TestWIF`: incorrect texts. -/
def badWIFs : List GoString := [
  asc "5Jw5VXRjdyojUobJQ9Psr8zmXZKHsjYgpLXf536ozN6uLZpNDD",
  asc "5KdoUDYDYSYQbC4oyjTzeeEBhjydEsJpdM9v1ziTFAkEeR2oBb",
  asc "5KctWoGYRZBYsXeiBJQJJwtoSPMB4CF97K7LgMsHhHuUphUcQc",
  asc "5K8z81Wdq6L5ZRcFdQpgnvaQQc8pesRLybsf5dCSKgFeeb2wRC",
  asc "5Kjc8GtRf22XKXFkxCZzCjpuXrqw8u7sxkWUBkT7KeiRBBTVps",
  asc "5JLk1eZM6MMSfji4DhHgbHTcEzRQw5rNB85E1nF8TwsYfhwDVe",
  asc "5JmvnCKj4PthjAJ3LAPK7xoMah6mRMLB3tqQmZqioSYcDaDgVL",
  asc "5JCTBTAkMm1fqJaYNBorjPQtCK19Leh6DhsmbnraRNBuMG31B",
  asc "5J5HCukSWeQKnhmthv4nFMvbuvek1iqiLbXbemJCZDBd5jPF8",
  asc "5JveaFJBvAoJoMHTjFb6vQYi6xdECpjzUd7av6UFuAr3Zer7tv",
  asc "5HyA68w1SbNiX23Wex9qLMvA68sYsXiDajSsBjW48gTS4cvCZ9",
  asc "5JP3yj2MozTDzHSkfYbcsooTjpxCL298pPvkdx3WCMknKmqqm4",
  asc "5JgEeMNEHQG36txKhC7as54sZRnr2burSBGBsmn3wE8jiWY4UX",
  asc "Jttm9vDkXKYZBgrmPraGoHGtMcsrzgJqUJAk7a6vGvp2iqu1qG"]

/-- `TestWIF`, one text. -/
def wifRow (P : List Decl) (expected : Bool) (wif : GoString) : Source.M Bool := do
  pure ((← bool! (← call P (.checkWIF wif))) == expected)

example : passes (rows (wifRow program true) (some! goodWIFs)) = true := by decide +kernel

example : passes (rows (wifRow program false) (some! badWIFs)) = true := by decide +kernel

/-- private_key_test.go:196-255 `TestAddPrivateKeys`: network, two keys and the result. -/
def sums : List (Ptr × GoString × GoString × GoString) := [
  (main, asc "5Jw5VXRjdyojUobJQ96Psr8zmXZKHsjYgpLXf536ozN6uLZpNDD", asc "5KdoUDYDYSYQbC4oyjTszeeEBhjydEsJpdM9v1ziTFAkEeR2oBb",
    asc "5JorCq4qFY6vgAh8S6VNq8SQMPDZbJ9gThonMd1VizhCF5RMhSG"),
  (main, asc "5JBxKUAFL9526rQcTYAoJcFw4QLYPRHWXmRKVX88jafJLfyTqVE", asc "5KG564bEsdu4WrDtcUNKRVuhA9JXeJvXCFnXDFEL1xvzMdDMAx1",
    asc "5KdjprJQ8KQ6MhFE2p6De4RVzwp9pbLx1D94UbJiWfjeXdu6qkw"),
  (main, asc "5J4DJXZTvS6VfzP9bMvfkUzX9HurnZN7G5LjXEvM6TmBherbgN7", asc "5KGiw1sox8jKZbCzjaTBXKYXBJsMzd5MdZbdbNctebitNJs8daW",
    asc "5KWeerzBo7FpyaCsHjvxBknv6zxJa3aPApsatSVVWBdRuNC5tMg"),
  (test, asc "931krx7yFnVSoHb1JxeN1W2rrhWARbNfiK3BA3xVZZrfgALvkMy", asc "92iDRThnHRquXbFLgZVdYzFjVUYz8difQtwjeMRRULKNbxNWkKV",
    asc "92CJwm76271zxzN5RQBBeXPp6fci5F6xjXF4WK169vbLcAqsJnz"),
  (test, asc "92iDRThnHRquXbFLgZVdYzFjVUYz8difQtwjeMRRULKNbxNWkKV", asc "91nnQwn6kyNo56s2umtUBoUbuB9FyU8vuQzQjG4ZfFKV354kAwt",
    asc "92v5fzDFNiaaNdDovo3Hn9SFXPWcjoTKFZ1R4p5jYy3AhGrZysb"),
  (test, asc "92H2Z5s2Mwy3XTJTmeRdc4q75suMonU1jqow36yqe5UQcZvLxu7", asc "91imyYBEzyfb2d45tX81JucjFsCvidtKYwxbZXP6f431rY1mV8E",
    asc "92QtNCmdhEzWL1TyzdCpxL9kUUvfA7x4E2qoHpxgiWujXLJhgo1")]

/-- `TestAddPrivateKeys`, one row. -/
def sumsRow (P : List Decl) (v : Ptr × GoString × GoString × GoString) : Source.M Bool := do
  let p1 ← priv! (← call P (.privateFromWIF v.2.1 v.1))
  let p2 ← priv! (← call P (.privateFromWIF v.2.2.1 v.1))
  let k ← thePriv (← priv! (← call P (.addPrivateKeys p1 p2)))
  pure (k.WIF == v.2.2.2)

example : passes (rows (sumsRow program) (some! sums)) = true := by decide +kernel

/-- `TestAddPrivateKeys`: keys of different networks. -/
example : passes (do
    let p1 ← priv! (← call program (.privateFromWIF (asc "937dTvv4mUCZFbHqaom9uPUAFhNPTVdeWZ454xKUiywubknhRV7") test))
    let p2 ← priv! (← call program (.privateFromWIF (asc "5J4DJXZTvS6VfzP9bMvfkUzX9HurnZN7G5LjXEvM6TmBherbgN7") main))
    failed (← call program (.addPrivateKeys p1 p2))) = true := by decide +kernel

/-- `TestAddPrivateKeys`: a key with itself (both tests call `AddPrivateKeys`). -/
example : passes (do
    let p1 ← priv! (← call program (.privateFromWIF (asc "5Jw5VXRjdyojUobJQ96Psr8zmXZKHsjYgpLXf536ozN6uLZpNDD") main))
    let p2 ← priv! (← call program (.privateFromWIF (asc "5Jw5VXRjdyojUobJQ96Psr8zmXZKHsjYgpLXf536ozN6uLZpNDD") main))
    failed (← call program (.addPrivateKeys p1 p2))) = true := by decide +kernel

/-- private_key_test.go:257-316 `TestMultiplyPrivateKeys`: network, two keys and the result. -/
def products : List (Ptr × GoString × GoString × GoString) := [
  (main, asc "5Jw5VXRjdyojUobJQ96Psr8zmXZKHsjYgpLXf536ozN6uLZpNDD", asc "5KdoUDYDYSYQbC4oyjTszeeEBhjydEsJpdM9v1ziTFAkEeR2oBb",
    asc "5J9ySojosxzdVS4JFiPeWUpcUqb6T5EwobxZKaxXkD1w4TGR6wm"),
  (main, asc "5JBxKUAFL9526rQcTYAoJcFw4QLYPRHWXmRKVX88jafJLfyTqVE", asc "5KG564bEsdu4WrDtcUNKRVuhA9JXeJvXCFnXDFEL1xvzMdDMAx1",
    asc "5JApih4xtEmPzQHqWSbWG1Ev3SWKX7cbNRhqnwPG4NsUiUGkHkN"),
  (main, asc "5J4DJXZTvS6VfzP9bMvfkUzX9HurnZN7G5LjXEvM6TmBherbgN7", asc "5KGiw1sox8jKZbCzjaTBXKYXBJsMzd5MdZbdbNctebitNJs8daW",
    asc "5Jk6N33DfNusZSQk6puyg2mutWFrdHMEmLKY1wfNH9Nvr3hBycZ"),
  (test, asc "931krx7yFnVSoHb1JxeN1W2rrhWARbNfiK3BA3xVZZrfgALvkMy", asc "92iDRThnHRquXbFLgZVdYzFjVUYz8difQtwjeMRRULKNbxNWkKV",
    asc "93EZpcjYBGSUyracS6r2S7zuies3L5JTaA3aWq8e7MuzEsgJN79"),
  (test, asc "92iDRThnHRquXbFLgZVdYzFjVUYz8difQtwjeMRRULKNbxNWkKV", asc "91nnQwn6kyNo56s2umtUBoUbuB9FyU8vuQzQjG4ZfFKV354kAwt",
    asc "93QbCK1yjymCNzriUM6G5bfqetCGz1Ffm8cyE71N1gQhXRUhqpK"),
  (test, asc "92H2Z5s2Mwy3XTJTmeRdc4q75suMonU1jqow36yqe5UQcZvLxu7", asc "91imyYBEzyfb2d45tX81JucjFsCvidtKYwxbZXP6f431rY1mV8E",
    asc "91oqEbrxXNoT658oKbMau5zjmR8YDKdajFMFrC6cLixxSgXxmZV")]

/-- `TestMultiplyPrivateKeys`, one row. -/
def productsRow (P : List Decl) (v : Ptr × GoString × GoString × GoString) : Source.M Bool := do
  let p1 ← priv! (← call P (.privateFromWIF v.2.1 v.1))
  let p2 ← priv! (← call P (.privateFromWIF v.2.2.1 v.1))
  let k ← thePriv (← priv! (← call P (.multiplyPrivateKeys p1 p2)))
  pure (k.WIF == v.2.2.2)

example : passes (rows (productsRow program) (some! products)) = true := by decide +kernel

/-- `TestMultiplyPrivateKeys`: keys of different networks. -/
example : passes (do
    let p1 ← priv! (← call program (.privateFromWIF (asc "937dTvv4mUCZFbHqaom9uPUAFhNPTVdeWZ454xKUiywubknhRV7") test))
    let p2 ← priv! (← call program (.privateFromWIF (asc "5J4DJXZTvS6VfzP9bMvfkUzX9HurnZN7G5LjXEvM6TmBherbgN7") main))
    failed (← call program (.multiplyPrivateKeys p1 p2))) = true := by decide +kernel

/-- `TestMultiplyPrivateKeys`: a key with itself (both tests call `AddPrivateKeys`). -/
example : passes (do
    let p1 ← priv! (← call program (.privateFromWIF (asc "5Jw5VXRjdyojUobJQ96Psr8zmXZKHsjYgpLXf536ozN6uLZpNDD") main))
    let p2 ← priv! (← call program (.privateFromWIF (asc "5Jw5VXRjdyojUobJQ96Psr8zmXZKHsjYgpLXf536ozN6uLZpNDD") main))
    failed (← call program (.addPrivateKeys p1 p2))) = true := by decide +kernel

/-- public_key_test.go:11-47 `TestGetPublicKey`: WIF, network and coordinates. -/
def points : List (GoString × Ptr × Int × Int) := [
  (asc "5JKmGh5KasctVb3o9p1eNZmgqgRNvAUTmVBs9aca5VJHHMFtMgc", main,
    94199638460339516669064035806819509557845470234024708380991157490745625887461,
    54083449022663392508147741242912037981561821775290570569793708283362887964722),
  (asc "5JqLR1PX9UWPkiPus9ontEPXo4KitgoiYCkHaFoDh5hJdDJJmcK", main,
    42387995307237826434754787419007831111230874724789793343385733389797684851,
    86169477900944296571822801798839818066696895173285295494704785443290890379942),
  (asc "5K9LPKv2VsbmAMhcEiNQnU2bTiNavtap1Ex6EMN1MFkTRZHi26E", main,
    70067853651479995177693488201083171446230153301655041651406139402055394702562,
    47025331434943430360016248296642421509393119020606367647692702178951082732050),
  (asc "5KMWmt74aaabx8bxumCoXzniNwfdPTTP4y2SG8D31Mzt79FemR9", main,
    87290897931703691238679009992642490285289830965256510074892293515044125193378,
    23757110026022741404723541138281280143080464763041281039544546403843659041132),
  (asc "5JE6ctXTzE8JK5Qaw1FUtR9kNiYsyBicuwdR2jn982sfn9BL2Ku", main,
    69840781979325786272537167981560351894064674609263318363174807841966654370289,
    82938824860119808593992611841822942122051714982437775837979360532170452176693),
  (asc "5JhpbHXjDJTuPxeXs53FBY4Hd4oZoS1RboswXNn3udEG6XtTdA8", main,
    45413414859231125040966507612571354847318717731234298567687710512794184696980,
    30507183370717390786906388992677235648543147292076448799316111210335435436895),
  (asc "5K9uGdHuajFab23DZFCv3EBN2bRwkifZiZRNbUoUgyn9g8UFMTu", main,
    15629854871576648256898131577715412909723789349496211937454709073480709307694,
    12232758451332534133404606413155186638903114511596549186569158525711025546290),
  (asc "931krx7yFnVSoHb1JxeN1W2rrhWARbNfiK3BA3xVZZrfgALvkMy", test,
    2072779824030601892023602317971046922633137422006114995373969146147251245593,
    111367008410412548832387998911870782212396716641541369710207726981765593914797),
  (asc "91imyYBEzyfb2d45tX81JucjFsCvidtKYwxbZXP6f431rY1mV8E", test,
    30121757235740649182431506006991350951674725383220809513372811460437197416995,
    84738295428427773812529924296411133738022697647327337499533401669839946252068),
  (asc "923jG4W4c83BacqWFTLHYCwaRw2YRR9umK9ZeQ2CtJfRLZLC8k6", test,
    60165574869215030714643779658149154815116791033013263935610054722278933938133,
    87696934251101765229319095715249798696879735187722831666281722138278655776088),
  (asc "92Bsm5dR62dXoEeTVAD899EEAtKBQoBQ68BnX4GC98TWnnaTWT5", test,
    30076639271076814124993507619810328989372217750737486133968510005401479660755,
    108059705823937390160193066577887038677675391102018634941729809480878672976199),
  (asc "92iDRThnHRquXbFLgZVdYzFjVUYz8difQtwjeMRRULKNbxNWkKV", test,
    76057552513823893717230329928467558996877140952655788856592513853306373507844,
    43475695055664201722853295107051704340310022312178129155081173673039676139404)]

/-- `TestGetPublicKey`, one row. -/
def pointRow (P : List Decl) (v : GoString × Ptr × Int × Int) : Source.M Bool := do
  let p ← priv! (← call P (.privateFromWIF v.1 v.2.1))
  let k ← thePriv p
  let q ← thePub (← valid! (← call P (.getPublicKey p)))
  pure (q.Network == k.Network && q.X == some v.2.2.1 && q.Y == some v.2.2.2)

example : passes (rows (pointRow program) (some! points)) = true := by decide +kernel

/-- public_key_test.go:49-94 `TestFormat`: WIF, network, uncompressed and compressed text. -/
def formats : List (GoString × Ptr × GoString × GoString) := [
  (asc "5JKmGh5KasctVb3o9p1eNZmgqgRNvAUTmVBs9aca5VJHHMFtMgc", main,
    asc "04D0431B1FB23BF0D4D9B95B26419CBA50409D0FA610E9274B2F418BDCA20D42E5779225B9A70BFC715149B73AE91BC31A22D1B123F4872C5F31864725A5A59832",
    asc "02D0431B1FB23BF0D4D9B95B26419CBA50409D0FA610E9274B2F418BDCA20D42E5"),
  (asc "5JqLR1PX9UWPkiPus9ontEPXo4KitgoiYCkHaFoDh5hJdDJJmcK", main,
    asc "040017FDA2210BFCBCC11D7E8845883D8A5C60A72DE7EA840A4D20A9E92681F673BE823236512B1E28DA42AA7446C39EB70B562C24CC299F0978ECD7C8F37C22A6",
    asc "020017FDA2210BFCBCC11D7E8845883D8A5C60A72DE7EA840A4D20A9E92681F673"),
  (asc "5K9LPKv2VsbmAMhcEiNQnU2bTiNavtap1Ex6EMN1MFkTRZHi26E", main,
    asc "049AE8FFF14B9C8379DB533015D01E33BC89B8EB8DB32993D8AE9BC332833AB4E267F764F5F7502D4B92AE79F4B2F4E7800BC3F438FDDF2757CB93519943BAEA12",
    asc "029AE8FFF14B9C8379DB533015D01E33BC89B8EB8DB32993D8AE9BC332833AB4E2"),
  (asc "5KMWmt74aaabx8bxumCoXzniNwfdPTTP4y2SG8D31Mzt79FemR9", main,
    asc "04C0FCE5BB12B2409B9CF31507BBC6CAB82E8F2C8EBF4E099E285D9DDC3E00B4A234860C3A4F917A8F3F8B63D3F260F3BB6E0FED4B46C40B5479CE8AB2DD14896C",
    asc "02C0FCE5BB12B2409B9CF31507BBC6CAB82E8F2C8EBF4E099E285D9DDC3E00B4A2"),
  (asc "5JE6ctXTzE8JK5Qaw1FUtR9kNiYsyBicuwdR2jn982sfn9BL2Ku", main,
    asc "049A687B54DD8733A2B69B7D044BD7A01ACEB8E9B8C1E2EE3A7334090219EE31F1B75DB61904F97FD0E0C689C1FFC0387B1EDD2E199448F7F4D41A2E1341730F35",
    asc "039A687B54DD8733A2B69B7D044BD7A01ACEB8E9B8C1E2EE3A7334090219EE31F1"),
  (asc "5JhpbHXjDJTuPxeXs53FBY4Hd4oZoS1RboswXNn3udEG6XtTdA8", main,
    asc "04646714F9321FB41ECBAA175C63123D56E3DE3D4A918B630E1B72778DB57BC49443727431FCF6B88748976DAC81DC2585F8BFA4A52EBC7FD3AF1416580FCB335F",
    asc "03646714F9321FB41ECBAA175C63123D56E3DE3D4A918B630E1B72778DB57BC494"),
  (asc "5K9uGdHuajFab23DZFCv3EBN2bRwkifZiZRNbUoUgyn9g8UFMTu", main,
    asc "04228E2F323D732B82315AE0DB2D040871B9E5B4BD6A21278C7FC8A9220F4BFD2E1B0B7EF4E024CFF10735275FC0BF987E21C69E9294E322FE4B3A2E3E47F5A432",
    asc "02228E2F323D732B82315AE0DB2D040871B9E5B4BD6A21278C7FC8A9220F4BFD2E"),
  (asc "931krx7yFnVSoHb1JxeN1W2rrhWARbNfiK3BA3xVZZrfgALvkMy", test,
    asc "04049526DCB9206C71CFC81B94D6D8737C85D330A147C0D97A332E906B10ED5219F6377E35CBAC734CC328EC81272B7678E27CD02ECA9CC07032101199CB055DAD",
    asc "03049526DCB9206C71CFC81B94D6D8737C85D330A147C0D97A332E906B10ED5219"),
  (asc "91imyYBEzyfb2d45tX81JucjFsCvidtKYwxbZXP6f431rY1mV8E", test,
    asc "0442984F78154E452C0A60D208A5B8D910EE3EBEFE7580FE1F967E633B295F6A23BB582CF204D801B0F3B8178577A96B4CFBD4E822A8A39E8E77483992DD0FFF24",
    asc "0242984F78154E452C0A60D208A5B8D910EE3EBEFE7580FE1F967E633B295F6A23"),
  (asc "923jG4W4c83BacqWFTLHYCwaRw2YRR9umK9ZeQ2CtJfRLZLC8k6", test,
    asc "0485048233A536EDE62124BD18E3768E74083DFB0A400C8BCC7E442E74D2D03FD5C1E2B4AF34C798AD774A272230A79C6C3F8A39BC932A54AC7AAEE7CED2015558",
    asc "0285048233A536EDE62124BD18E3768E74083DFB0A400C8BCC7E442E74D2D03FD5"),
  (asc "92Bsm5dR62dXoEeTVAD899EEAtKBQoBQ68BnX4GC98TWnnaTWT5", test,
    asc "04427EC649C34A1CB3E69B48C4238DAC32AFA5ABE6474A11B530DF204C8DF9C4D3EEE7A046D61279149C50926223863C6AF61805A7414572ADEB74A09189AA1947",
    asc "03427EC649C34A1CB3E69B48C4238DAC32AFA5ABE6474A11B530DF204C8DF9C4D3"),
  (asc "92iDRThnHRquXbFLgZVdYzFjVUYz8difQtwjeMRRULKNbxNWkKV", test,
    asc "04A8270C97E7B2C17D83A90A51024E2D5BD7C3DE8D57ED75ABC473DB9EBB4D8B04601E5F130F0DC2B23FA2FF4BDC92D3FDEB61D9017C5F86A079F29E2CCF79678C",
    asc "02A8270C97E7B2C17D83A90A51024E2D5BD7C3DE8D57ED75ABC473DB9EBB4D8B04")]

/-- `TestFormat`, one row. -/
def formatRow (P : List Decl) (v : GoString × Ptr × GoString × GoString) : Source.M Bool := do
  let p ← priv! (← call P (.privateFromWIF v.1 v.2.1))
  let q ← valid! (← call P (.getPublicKey p))
  let u ← text! (← call P (.format q false))
  let c ← text! (← call P (.format q true))
  pure (low u == low v.2.2.1 && low c == low v.2.2.2)

example : passes (rows (formatRow program) (some! formats)) = true := by decide +kernel

/-- public_key_test.go:96-141 `TestAddress`: public key, its two addresses, network. -/
def addresses : List (GoString × GoString × GoString × Ptr) := [
  (asc "04D0431B1FB23BF0D4D9B95B26419CBA50409D0FA610E9274B2F418BDCA20D42E5779225B9A70BFC715149B73AE91BC31A22D1B123F4872C5F31864725A5A59832",
    asc "1LsYfWvKHvo1t6iDQQaauQi1sT5Hyt19ei", asc "1HLvTawtr94zmmY1Qd3LQ5uRiav3HZizTN", main),
  (asc "040017FDA2210BFCBCC11D7E8845883D8A5C60A72DE7EA840A4D20A9E92681F673BE823236512B1E28DA42AA7446C39EB70B562C24CC299F0978ECD7C8F37C22A6",
    asc "1BBu2rgpgcqRhWg3E4zhLkYvjA5BGqT4Ue", asc "1C9HJdNdBPHu8ChhCZx4coCkY5bZYnUP2B", main),
  (asc "049AE8FFF14B9C8379DB533015D01E33BC89B8EB8DB32993D8AE9BC332833AB4E267F764F5F7502D4B92AE79F4B2F4E7800BC3F438FDDF2757CB93519943BAEA12",
    asc "1ELom8Kh96zHGzhifVZEUqH6vLEEVNaW3S", asc "1Q8VC6bUb7uVQyE465SrAGYzshrLSb7Lr3", main),
  (asc "04C0FCE5BB12B2409B9CF31507BBC6CAB82E8F2C8EBF4E099E285D9DDC3E00B4A234860C3A4F917A8F3F8B63D3F260F3BB6E0FED4B46C40B5479CE8AB2DD14896C",
    asc "1UHZkgAgTEakeA9ynuSbH36iEtgWLZHD6", asc "1Dzm3dZL3fU4vBMdfqC1gEKwsY5eDfVt5h", main),
  (asc "049A687B54DD8733A2B69B7D044BD7A01ACEB8E9B8C1E2EE3A7334090219EE31F1B75DB61904F97FD0E0C689C1FFC0387B1EDD2E199448F7F4D41A2E1341730F35",
    asc "1JADLEivYdYt8VbXwVDnt93wUXvaDNqo4m", asc "1FJ47zupS7Y2fjjzZncjyKXW6R8bSNhdVf", main),
  (asc "04646714F9321FB41ECBAA175C63123D56E3DE3D4A918B630E1B72778DB57BC49443727431FCF6B88748976DAC81DC2585F8BFA4A52EBC7FD3AF1416580FCB335F",
    asc "1CT3TdbhBrunthBsD1cMrVGjmFfcSxRqgR", asc "1Jfn6uidNPRcXtJTwt3hURD8EQX2zhjHsN", main),
  (asc "04228E2F323D732B82315AE0DB2D040871B9E5B4BD6A21278C7FC8A9220F4BFD2E1B0B7EF4E024CFF10735275FC0BF987E21C69E9294E322FE4B3A2E3E47F5A432",
    asc "14Tro61Af74bXg2M9PrREEW133u32co4SD", asc "13VGjxi7TLQJgeqUc1eCbnnK4KqGTRA4fX", main),
  (asc "04049526DCB9206C71CFC81B94D6D8737C85D330A147C0D97A332E906B10ED5219F6377E35CBAC734CC328EC81272B7678E27CD02ECA9CC07032101199CB055DAD",
    asc "myVJkazTp5wUFCsgiH8J9wc8M8KmmsAksy", asc "mzSuqD9ZcVHbs2K6oQYrzpwZnkzGL2VBPk", test),
  (asc "0442984F78154E452C0A60D208A5B8D910EE3EBEFE7580FE1F967E633B295F6A23BB582CF204D801B0F3B8178577A96B4CFBD4E822A8A39E8E77483992DD0FFF24",
    asc "mx3Vej86kEFxWety1rHSqEgp4z2dcG7t1x", asc "n1cERpiyZWXBm5EMmf5W6hKte6UxhKwv5h", test),
  (asc "0485048233A536EDE62124BD18E3768E74083DFB0A400C8BCC7E442E74D2D03FD5C1E2B4AF34C798AD774A272230A79C6C3F8A39BC932A54AC7AAEE7CED2015558",
    asc "mgZoigMygTyrnKjfx7eaqn4x4yTFxhAotD", asc "mgQCe7oLuqw3TMYY3XHwWmnb6KVSrYcFEk", test),
  (asc "04427EC649C34A1CB3E69B48C4238DAC32AFA5ABE6474A11B530DF204C8DF9C4D3EEE7A046D61279149C50926223863C6AF61805A7414572ADEB74A09189AA1947",
    asc "n16p9hHMP149cWCbM5hprvSYfsxq85VJB9", asc "mgz9zTbaaxKdEPtWj7TGTx9zVw67QgMZFp", test),
  (asc "04A8270C97E7B2C17D83A90A51024E2D5BD7C3DE8D57ED75ABC473DB9EBB4D8B04601E5F130F0DC2B23FA2FF4BDC92D3FDEB61D9017C5F86A079F29E2CCF79678C",
    asc "mfmce3TFnjpscw1rytvucWvJA9jurQENTY", asc "n3zg3YDjE1o2mvm82MXEngpHSZ7KrhcCZv", test)]

/-- `TestAddress`, one row. (The test ignores letter case; here the case is compared too.) -/
def addressRow (P : List Decl) (v : GoString × GoString × GoString × Ptr) : Source.M Bool := do
  let q ← pub! (← call P (.publicFromHex v.1 v.2.2.2))
  let u ← text! (← call P (.address q false))
  let c ← text! (← call P (.address q true))
  pure (u == v.2.1 && c == v.2.2.1)

example : passes (rows (addressRow program) (some! addresses)) = true := by decide +kernel

/-- public_key_test.go:143-185 `TestPublicFromHex`: uncompressed text, compressed text, network. -/
def publicKeys : List (GoString × GoString × Ptr) := [
  (asc "04D0431B1FB23BF0D4D9B95B26419CBA50409D0FA610E9274B2F418BDCA20D42E5779225B9A70BFC715149B73AE91BC31A22D1B123F4872C5F31864725A5A59832",
    asc "02D0431B1FB23BF0D4D9B95B26419CBA50409D0FA610E9274B2F418BDCA20D42E5", main),
  (asc "040017FDA2210BFCBCC11D7E8845883D8A5C60A72DE7EA840A4D20A9E92681F673BE823236512B1E28DA42AA7446C39EB70B562C24CC299F0978ECD7C8F37C22A6",
    asc "020017FDA2210BFCBCC11D7E8845883D8A5C60A72DE7EA840A4D20A9E92681F673", main),
  (asc "049AE8FFF14B9C8379DB533015D01E33BC89B8EB8DB32993D8AE9BC332833AB4E267F764F5F7502D4B92AE79F4B2F4E7800BC3F438FDDF2757CB93519943BAEA12",
    asc "029AE8FFF14B9C8379DB533015D01E33BC89B8EB8DB32993D8AE9BC332833AB4E2", main),
  (asc "04C0FCE5BB12B2409B9CF31507BBC6CAB82E8F2C8EBF4E099E285D9DDC3E00B4A234860C3A4F917A8F3F8B63D3F260F3BB6E0FED4B46C40B5479CE8AB2DD14896C",
    asc "02C0FCE5BB12B2409B9CF31507BBC6CAB82E8F2C8EBF4E099E285D9DDC3E00B4A2", main),
  (asc "049A687B54DD8733A2B69B7D044BD7A01ACEB8E9B8C1E2EE3A7334090219EE31F1B75DB61904F97FD0E0C689C1FFC0387B1EDD2E199448F7F4D41A2E1341730F35",
    asc "039A687B54DD8733A2B69B7D044BD7A01ACEB8E9B8C1E2EE3A7334090219EE31F1", main),
  (asc "04646714F9321FB41ECBAA175C63123D56E3DE3D4A918B630E1B72778DB57BC49443727431FCF6B88748976DAC81DC2585F8BFA4A52EBC7FD3AF1416580FCB335F",
    asc "03646714F9321FB41ECBAA175C63123D56E3DE3D4A918B630E1B72778DB57BC494", main),
  (asc "04228E2F323D732B82315AE0DB2D040871B9E5B4BD6A21278C7FC8A9220F4BFD2E1B0B7EF4E024CFF10735275FC0BF987E21C69E9294E322FE4B3A2E3E47F5A432",
    asc "02228E2F323D732B82315AE0DB2D040871B9E5B4BD6A21278C7FC8A9220F4BFD2E", main),
  (asc "04049526DCB9206C71CFC81B94D6D8737C85D330A147C0D97A332E906B10ED5219F6377E35CBAC734CC328EC81272B7678E27CD02ECA9CC07032101199CB055DAD",
    asc "03049526DCB9206C71CFC81B94D6D8737C85D330A147C0D97A332E906B10ED5219", test),
  (asc "0442984F78154E452C0A60D208A5B8D910EE3EBEFE7580FE1F967E633B295F6A23BB582CF204D801B0F3B8178577A96B4CFBD4E822A8A39E8E77483992DD0FFF24",
    asc "0242984F78154E452C0A60D208A5B8D910EE3EBEFE7580FE1F967E633B295F6A23", test),
  (asc "0485048233A536EDE62124BD18E3768E74083DFB0A400C8BCC7E442E74D2D03FD5C1E2B4AF34C798AD774A272230A79C6C3F8A39BC932A54AC7AAEE7CED2015558",
    asc "0285048233A536EDE62124BD18E3768E74083DFB0A400C8BCC7E442E74D2D03FD5", test),
  (asc "04427EC649C34A1CB3E69B48C4238DAC32AFA5ABE6474A11B530DF204C8DF9C4D3EEE7A046D61279149C50926223863C6AF61805A7414572ADEB74A09189AA1947",
    asc "03427EC649C34A1CB3E69B48C4238DAC32AFA5ABE6474A11B530DF204C8DF9C4D3", test),
  (asc "04A8270C97E7B2C17D83A90A51024E2D5BD7C3DE8D57ED75ABC473DB9EBB4D8B04601E5F130F0DC2B23FA2FF4BDC92D3FDEB61D9017C5F86A079F29E2CCF79678C",
    asc "02A8270C97E7B2C17D83A90A51024E2D5BD7C3DE8D57ED75ABC473DB9EBB4D8B04", test)]

/-- `TestPublicFromHex`, one row. -/
def publicFromHexRow (P : List Decl) (v : GoString × GoString × Ptr) : Source.M Bool := do
  let q ← pub! (← call P (.publicFromHex v.1 v.2.2))
  let c ← text! (← call P (.format q true))
  let q' ← pub! (← call P (.publicFromHex v.2.1 v.2.2))
  let u ← text! (← call P (.format q' false))
  pure (low c == low v.2.1 && low u == low v.1)

example : passes (rows (publicFromHexRow program) (some! publicKeys)) = true := by decide +kernel

/-- public_key_test.go:187-218 `TestAddPublicKeys`: two keys and their sum, network. -/
def publicSums : List (GoString × GoString × GoString × Ptr) := [
  (asc "04ada3afd4abf1447160dd0264c8897352366af84f0af5543b23943537008ddcee6e04a2fbbc89981d269d72fb0068770d82585e9a6eb4468fa06199c5bd6cb290",
    asc "0491cd3b69e53bac698430c93bb9b5c6602398edd6cc99f2e8bd7476866cce44c1c9381dd8ac11d19180b9263b319f6c5d1fef875b7fc99b9abe2f1843d87242ae",
    asc "04dbab0910d663d7dcfae8edcbd1fb8653a8943a25231175f7c1fa0318a9d332f035309f6456aa93a28839cec40549eca98d6efe1eca5feacfd186bbb252f260d4", main),
  (asc "047bf58abc99b1159a7b4b55e3068116cfd04c2a6e0f42dd900f47219dd7cb4604ecba0ed576bdede045fd1818fe8b8793c32e4366503118f68a6705cc7e293c47",
    asc "0426b1cc4a5c36ff6f551e505a112685c5837269f3be5cbf9c0655267e8f5f7569a0323c70309140388c8949492d6397aaac10b6ae44134e7a6ef2303623330aae",
    asc "04caadd1f857753749ff00bd71de1ec9e7a7567a3b042f5f857a6318dfa472f0bf4391c47d018dac76f8908ef991dc38a8fc233455f6badf88e461d7a6984db248", main),
  (asc "04b56bf199adf110f26229e6e9d385567fcb5309507e5eb7302799d9869a1d0306522c7fc8462db346f5c3654cd922691e9a4d95a13c1eeae9c3371bc4637df85e",
    asc "04c2bfb4d0c5d97adeb8523c6d96e2ebbac54fd79bc5675cf50ba555ef3255a797dee0bb8c94a25eb1568ea9d82f822986068118d9e1399803b0c1e20f4eecf7ef",
    asc "046a3fab18d34566e314e6a40df88a1c862026bc708ab97e88718e7e51b7509b72411033290d4c5890d13c3a1afb69811d5b0c410eaf64490c361b1386007ed484", main),
  (asc "04cb4ceb1ea984915a2b59444404c936c968081a37ab38cd78bfee6af64f469229ddbb5e586356adabacf23b49133c63322397ee136945843fed97b856e8754311",
    asc "046defde1317b50283e13031924c8edddffdafb4ef7bf935030f036e55b13171d7f65b17699041bdc7c139f36f681a98812d050d5672c2816fea13b07240c86c29",
    asc "0479306b8d5ac4fc12623520e98e78bb1cbff41beb03ed2eb6fb1e8da15ddc57a57ce650586b95501b96c6c89588c7ae09d351da1e3dcd3593f3a2e85c04a3944f", main),
  (asc "04c60e8720081b35e1a70ed52d38083c123a756692c9251d1f348066248dfc4d76cef315221feb982e04a6940957d9f2a10b6e135ddc08fb4b77ee495b98ae16e8",
    asc "04061e4f7d4bc0f961263309d79b3b62b21167953cbdc6709ac5622b4c3b283ef6647efc2e437c95fe716a9041c5b473ef6ab56769ac8a6e8691b4c42552ef026e",
    asc "04a2d4d93676510b5feec70315db5ad6116b4ccc3439869b9f0fc65b6f4ee82f6dd8d9b036cc4e4c7f22dafd692d482ef4ee46f2a6917e736fa126ebd443b5a2d9", main),
  (asc "04ef0d93e3b811fd54eb1c1af06e523e336d031ccb5c34b083231ad2c91110a616e0c42997233a9fe831b0edf2ce2c8449b857359933e9e938f77a4bc81b195f37",
    asc "04a07c4339cae9f0fcec1815ce8cbecf6e66bd1b5d43fb6cc184b312b13781fc8fe8a6ba340744aaea03bdb1ebb955e8d0cd6469ad70e15350ff9d440e7fea412b",
    asc "0404b3069937637a60dd6636f8b61bf2a85758e1975c0bd1db2ad82864bc220fdc4bdb82d5015e71b5e35e915a193c6e3d5b64f8324ae0c4f36d7d565e90946a76", test),
  (asc "04a869f852e3b8907efa06ae6ca4a503d559b9d7c823c723587f9b5d5d0e110f8c8ed6bcd746138b03877ebb8427aae85fd52e00ac0e8356d91862f221dfdf1c87",
    asc "04046a1fea7f8f6bc38c8acb9e68ca3c2b20e631d5be4bc5e5d4fe6f808532c2991879fa002367bce831e87b790939ac5a03aa5595ac2a6332d714c1baf7c9c10f",
    asc "04f5557b4319df2ffcf240d4872ee41398134a42cfad97896b4bea2ffba1c2cbb786ba8edbd92c5b8764b2e0baea95c7a222c0c9d2271194a607cdee13cd610e58", test),
  (asc "0481aa135e18a01adfaf502c393e267454bbf38ccd982b2cc2574e56922dcb7964dce839e3852c03a66fb255f136418cd8f3316bd9039bb321a0ddd303401f3a99",
    asc "04733b2d2a076572a7a6deb1edba9b50dae312138a1e2f76a02b48ce45c9dcdb7f2bf37a96d9b49f1db2cce4c6782cd14903c73b2bceed3753e50dcccb987392f4",
    asc "04f66d1cf72b224790f897a256493639cf0d5adc969ad83695efb7d12e7b1cbc913ce4bfc3bd92d6d56c8a792e6f3bf53f31d430ef6c4266eb3ee5773fd4710a80", test),
  (asc "045b182662b540b3917ba2ebd65c9beac01090114012a2bc0a4112cbe50a22fb0570a225a567bcb4b7e21e1e10ab229e40bd02e736e765ba18256fa61487389a24",
    asc "0434fdb23229f93d1c28b903ec3464d5ff54a9ea6d03183aabea21acae32da5871cbd358b0be6bca80327491848b54ac6fac5c128312d0766b9111e57b21ddb132",
    asc "04f782cd009951fb5012e0a3a228f9232fd9c64f21268864a07e01236619900fc2ecbea4f265dea13b2322a1576df7c33073a1e1e7b33d1c77066b72910b6a361c", test),
  (asc "041dae5c6d4312dc9af1f1ef9b2fbaa05947b26ebcfe7954c6429e5022b62f355751d4e9dfd416bf07d07421bcf08df67ac2eb76782c5741772c60f1f30709b92e",
    asc "0489be0a42996579b04f56a477c43ec5012bbacd12cd42b5fb5913b54e43df9df9a2c369de3d1129f63468d80a14e4f33cd2c52809970062cf9f8636c2e6371f12",
    asc "04c6b63c1cb8e591cac964e71bbb224c3ddcf49093dbd879dae18f887d6f33ed8eeb502d1ece22f53233d1cfc9dcf1354959e86b652d4256e03ed88533d76ad8d8", test)]

/-- `TestAddPublicKeys`, one row. -/
def publicSumRow (P : List Decl) (v : GoString × GoString × GoString × Ptr) : Source.M Bool := do
  let q1 ← pub! (← call P (.publicFromHex v.1 v.2.2.2))
  let q2 ← pub! (← call P (.publicFromHex v.2.1 v.2.2.2))
  let s ← pub! (← call P (.addPublicKeys q1 q2 false))
  let u ← text! (← call P (.format s false))
  pure (low u == low v.2.2.1)

example : passes (rows (publicSumRow program) (some! publicSums)) = true := by decide +kernel

/-- mnemonic_test.go:10-23 `TestNewMnemonic`, with a random source of constant bytes: one phrase.
(`TestNewSeedFromMnemonic` asserts nothing; its call is an example in Props/Source.lean.) -/
example : (match (rows (fun n : Nat => do
      let phrase ← text! (← call program (.newMnemonic n (some EnglishWordlist)))
      pure ((phrase.filter (· == 32)).length + 1 == n)) [12]) (started (List.replicate 16 0xa7) []) with
    | .ok b st => b && st.rd == []
    | _ => false) = true := by decide +kernel

/-! ## The repaired text -/

example : passes (rows (privateFromHexRow repaired) (privateKeys.take 1)) = true := by decide +kernel

example : passes (do failed (← call repaired (.privateFromHex (asc "8613DFD6C099751DCC4020EF6F9BCD3C00F4565A15B26979B4B93C045D0A5CE") main))) = true := by decide +kernel

example : passes (do failed (← call repaired (.privateFromHex (asc "8613DFD6C099751DCC4020EF6F9BCD3C00F4565A15B26979B4B93C045D0A5CEB1") main))) = true := by decide +kernel

example : passes (rows (privateFromWIFRow repaired) (privateKeys.take 1)) = true := by decide +kernel

example : passes (do failed (← call repaired (.privateFromWIF (asc "5JE6ctXTzE8JK5Qaw1FUtR9kNiYsyBicuwdR2jn982sfn9BL2K") main))) = true := by decide +kernel

example : passes (rows (wifRow repaired true) (goodWIFs.take 1)) = true := by decide +kernel

example : passes (rows (wifRow repaired false) (badWIFs.take 1)) = true := by decide +kernel

example : passes (rows (sumsRow repaired) (sums.take 1)) = true := by decide +kernel

example : passes (rows (productsRow repaired) (products.take 1)) = true := by decide +kernel

/-- Keys of different networks, and a key with itself. -/
example : passes (do
    let p1 ← priv! (← call repaired (.privateFromWIF (asc "937dTvv4mUCZFbHqaom9uPUAFhNPTVdeWZ454xKUiywubknhRV7") test))
    let p2 ← priv! (← call repaired (.privateFromWIF (asc "5J4DJXZTvS6VfzP9bMvfkUzX9HurnZN7G5LjXEvM6TmBherbgN7") main))
    let b1 ← failed (← call repaired (.addPrivateKeys p1 p2))
    let b2 ← failed (← call repaired (.multiplyPrivateKeys p1 p2))
    let b3 ← failed (← call repaired (.addPrivateKeys p2 p2))
    pure (b1 && b2 && b3)) = true := by decide +kernel

example : passes (rows (pointRow repaired) (points.take 1)) = true := by decide +kernel

example : passes (rows (formatRow repaired) (formats.take 1)) = true := by decide +kernel

example : passes (rows (addressRow repaired) (addresses.take 1)) = true := by decide +kernel

example : passes (rows (publicFromHexRow repaired) (publicKeys.take 1)) = true := by decide +kernel

example : passes (rows (publicSumRow repaired) (publicSums.take 1)) = true := by decide +kernel

end Btc.SourceTests
