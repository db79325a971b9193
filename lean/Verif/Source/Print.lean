import Verif.Source.Trees

/-!
# From the trees back to the tokens

A printer, written without looking at the parser's steps. For each file, printing the trees gives all the tokens of the
text, in their order: the parser has not dropped, reordered or regrouped anything.
-/

namespace Btc.Source

/-- Around `ts` if `b`. -/
def parens (b : Bool) (ts : List Tok) : List Tok := if b then .op (id! "(") :: ts ++ [.op (id! ")")] else ts

/-- Expressions; `p` is the lowest precedence that needs no parentheses here. -/
def printE : Expr → Nat → List Tok
  | .name x, _ => [.id x]
  | .num n, _ => [.num n]
  | .str s, _ => [.str s]
  | .sel e f, _ => printE e 7 ++ [.op (id! "."), .id f]
  | .call f args, _ => printE f 7 ++ [.op (id! "(")] ++ printE args 0 ++ [.op (id! ")")]
  | .index e i, _ => printE e 7 ++ [.op (id! "[")] ++ printE i 0 ++ [.op (id! "]")]
  | .slice e lo hi, _ => printE e 7 ++ [.op (id! "[")] ++ printE lo 0 ++ [.op (id! ":")] ++ printE hi 0 ++ [.op (id! "]")]
  | .un o e, p => parens (6 < p) (.op o :: printE e 6)
  | .bin o a b, p => parens (prec o < p) (printE a (prec o) ++ [.op o] ++ printE b (prec o + 1))
  | .lit t .nil, _ => printE t 7 ++ [.op (id! "{"), .op (id! "}")]
  | .lit t fs, _ => printE t 7 ++ [.op (id! "{")] ++ printE fs 0 ++ [.op (id! ","), .op (id! "}")]
  | .kv f e, _ => [.id f, .op (id! ":")] ++ printE e 0
  | .sliceOf t, _ => [.op (id! "["), .op (id! "]")] ++ printE t 7
  | .nil, _ => []
  | .cons e .nil, _ => printE e 0
  | .cons e es, _ => printE e 0 ++ [.op (id! ",")] ++ printE es 0

/-- What `switch` switches on: the left-hand side of its first comparison. -/
def subject : Stmt → List Tok
  | .ite (.bin _ e _) _ _ => printE e 0
  | _ => []

/-- What stands between the braces of a block. -/
def inner : List Tok → List Tok := fun ts => .op (id! "{") :: ts ++ [.op (id! "}")]

mutual
/-- Statements, without the semicolon. -/
def printS : Stmt → List Tok
  | .skip => []
  | .seq a b => printS a ++ [.op (id! ";")] ++ printS b
  | .block s => inner (printS s)
  | .define l r => printE l 0 ++ [.op (id! ":=")] ++ printE r 0
  | .assign l r => printE l 0 ++ [.op (id! "=")] ++ printE r 0
  | .addAssign l r => printE l 0 ++ [.op (id! "+=")] ++ printE r 0
  | .inc l => printE l 0 ++ [.op (id! "++")]
  | .expr e => printE e 0
  | .var x t => [.id (id! "var"), .id x] ++ printE t 0
  | .ret es => .id (id! "return") :: printE es 0
  | .brk => [.id (id! "break")]
  | .ite c t .skip => .id (id! "if") :: printE c 0 ++ printS t
  | .ite c t e => .id (id! "if") :: printE c 0 ++ printS t ++ [.id (id! "else")] ++ printS e
  | .loop .skip c .skip b => .id (id! "for") :: printE c 0 ++ printS b
  | .loop i c p b =>
    .id (id! "for") :: printS i ++ [.op (id! ";")] ++ printE c 0 ++ [.op (id! ";")] ++ printS p ++ printS b
  | .range k v e b =>
    [.id (id! "for"), .id k] ++ (if v = id! "_" then [] else [.op (id! ","), .id v]) ++
      [.op (id! ":="), .id (id! "range")] ++ printE e 0 ++ printS b
  | .switch s => .id (id! "switch") :: subject s ++ inner (printC s)

/-- The cases of `switch`. -/
def printC : Stmt → List Tok
  | .ite (.bin _ _ v) (.block b) r => .id (id! "case") :: printE v 0 ++ [.op (id! ":")] ++ printS b ++ printC r
  | .block b => [.id (id! "default"), .op (id! ":")] ++ printS b
  | _ => []
end

/-- `x T, y U` -/
def printParams : List (Nat × Expr) → List Tok
  | [] => []
  | [(x, t)] => .id x :: printE t 0
  | (x, t) :: ps => .id x :: printE t 0 ++ [.op (id! ",")] ++ printParams ps

/-- `T, U` -/
def printTypes : List Expr → List Tok
  | [] => []
  | [t] => printE t 0
  | t :: ts => printE t 0 ++ [.op (id! ",")] ++ printTypes ts

/-- Declarations, with the semicolon. -/
def printD : Decl → List Tok
  | .imports ps => [.id (id! "import"), .op (id! "(")] ++ ps.flatMap (fun s => [.str s, .op (id! ";")]) ++ [.op (id! ")"), .op (id! ";")]
  | .func f =>
    [.id (id! "func")] ++
      (if f.recv = 0 then [] else [.op (id! "("), .id f.recvName, .op (id! "*"), .id f.recv, .op (id! ")")]) ++
      [.id f.name] ++ parens true (printParams f.params) ++ parens (1 < f.results.length) (printTypes f.results) ++
      inner (printS f.body) ++ [.op (id! ";")]
  | .var x t => [.id (id! "var"), .id x] ++ printE t 0 ++ [.op (id! ";")]
  | .varInit x e => [.id (id! "var"), .id x, .op (id! "=")] ++ printE e 0 ++ [.op (id! ";")]
  | .struct x fs =>
    [.id (id! "type"), .id x, .id (id! "struct")] ++
      inner (fs.flatMap fun p => .id p.1 :: printE p.2 0 ++ [.op (id! ";")]) ++ [.op (id! ";")]
  | .type x t => [.id (id! "type"), .id x] ++ printE t 0 ++ [.op (id! ";")]

/-- A file of package `btc`. -/
def printFile (ds : List Decl) : List Tok := [.id (id! "package"), .id (id! "btc"), .op (id! ";")] ++ ds.flatMap printD

theorem structGo_print : lex structGo.toList = some (printFile structDecls) := by rw [structGo_toList]; decide +kernel
theorem btcGo_print : lex btcGo.toList = some (printFile btcDecls) := by rw [btcGo_toList]; decide +kernel
theorem utilGo_print : lex utilGo.toList = some (printFile utilDecls) := by rw [utilGo_toList]; decide +kernel
theorem privateKeyGo_print : lex privateKeyGo.toList = some (printFile privateKeyDecls) := by rw [privateKeyGo_toList]; decide +kernel
theorem publicKeyGo_print : lex publicKeyGo.toList = some (printFile publicKeyDecls) := by rw [publicKeyGo_toList]; decide +kernel
theorem mnemonicGo_print : lex mnemonicGo.toList = some (printFile mnemonicDecls) := by rw [mnemonicGo_toList]; decide +kernel

end Btc.Source
