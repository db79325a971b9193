import Verif.Source.Lex

/-!
# The parser

Recursive descent, as in the Go specification, for the constructs that occur in the repository. `n` bounds the depth
of the recursion. A composite literal is not recognised directly in the head of `if`, `for` and `switch` (`lit` is then
false), as Go has it.
-/

namespace Btc.Source

/-- What a parser gives: the result and the rest of the tokens. -/
abbrev P (α : Type) := List Tok → Option (α × List Tok)

/-- Expect an operator. -/
def expect (o : Nat) : List Tok → Option (List Tok)
  | .op p :: ts => if p == o then some ts else none
  | _ => none

/-- Expect a word. -/
def expectId (x : Nat) : List Tok → Option (List Tok)
  | .id y :: ts => if y == x then some ts else none
  | _ => none

/-- An identifier. -/
def ident : P Nat
  | .id x :: ts => some (x, ts)
  | _ => none

/-- Go's precedences of the binary operators that occur; 0 for everything else. -/
def prec (o : Nat) : Nat :=
  if o == id! "||" then 1
  else if o == id! "&&" then 2
  else if o == id! "==" || o == id! "!=" || o == id! "<" || o == id! "<=" || o == id! ">" || o == id! ">=" then 3
  else if o == id! "+" || o == id! "-" then 4
  else if o == id! "*" || o == id! "/" then 5
  else 0

/-- Unary operators. -/
def isUnary (o : Nat) : Bool := o == id! "!" || o == id! "-" || o == id! "&"

/-- Types: `T`, `pkg.T`, `*T`, `[]T`. -/
def pType : Nat → P Expr
  | 0, _ => none
  | n + 1, ts =>
    match ts with
    | .op o :: ts =>
      if o == id! "*" then
        match pType n ts with
        | some (t, ts) => some (.un (id! "*") t, ts)
        | none => none
      else if o == id! "[" then
        match expect (id! "]") ts with
        | some ts =>
          match pType n ts with
          | some (t, ts) => some (.sliceOf t, ts)
          | none => none
        | none => none
      else none
    | .id x :: .op o :: .id y :: ts =>
      if o == id! "." then some (.sel (.name x) y, ts) else some (.name x, .op o :: .id y :: ts)
    | .id x :: ts => some (.name x, ts)
    | _ => none

mutual
/-- A binary expression whose operators have precedence at least `p`. -/
def pExpr : Nat → Bool → Nat → P Expr
  | 0, _, _, _ => none
  | n + 1, lit, p, ts =>
    match pUnary n lit ts with
    | some (a, ts) => pBin n lit p a ts
    | none => none

/-- The rest of a binary expression, after its first operand. -/
def pBin : Nat → Bool → Nat → Expr → P Expr
  | 0, _, _, _, _ => none
  | n + 1, lit, p, a, ts =>
    match ts with
    | .op o :: ts' =>
      if prec o ≠ 0 ∧ p ≤ prec o then
        match pExpr n lit (prec o + 1) ts' with
        | some (b, ts) => pBin n lit p (.bin o a b) ts
        | none => none
      else some (a, ts)
    | _ => some (a, ts)

/-- Unary expressions. -/
def pUnary : Nat → Bool → P Expr
  | 0, _, _ => none
  | n + 1, lit, ts =>
    match ts with
    | .op o :: ts' =>
      if isUnary o then
        match pUnary n lit ts' with
        | some (e, ts) => some (.un o e, ts)
        | none => none
      else if o == id! "(" then
        match pExpr n true 1 ts' with
        | some (e, ts) =>
          match expect (id! ")") ts with
          | some ts => pPost n lit e ts
          | none => none
        | none => none
      else none
    | .id x :: ts => pPost n lit (.name x) ts
    | .num k :: ts => some (.num k, ts)
    | .str s :: ts => some (.str s, ts)
    | _ => none

/-- Selectors, calls, indices, slices and composite literals after an operand. -/
def pPost : Nat → Bool → Expr → P Expr
  | 0, _, _, _ => none
  | n + 1, lit, e, ts =>
    match ts with
    | .op o :: ts' =>
      if o == id! "." then
        match ident ts' with
        | some (f, ts) => pPost n lit (.sel e f) ts
        | none => none
      else if o == id! "(" then
        match pItems n (id! ")") ts' with
        | some (args, ts) => pPost n lit (.call e args) ts
        | none => none
      else if o == id! "[" then
        match pExpr n true 1 ts' with
        | some (i, .op c :: ts) =>
          if c == id! "]" then pPost n lit (.index e i) ts
          else if c == id! ":" then
            match pExpr n true 1 ts with
            | some (j, ts) =>
              match expect (id! "]") ts with
              | some ts => pPost n lit (.slice e i j) ts
              | none => none
            | none => none
          else none
        | _ => none
      else if o == id! "{" && lit then
        match pItems n (id! "}") ts' with
        | some (fs, ts) => pPost n lit (.lit e fs) ts
        | none => none
      else some (e, ts)
    | _ => some (e, ts)

/-- Arguments or elements, separated by commas (one may follow the last), up to `stop`. -/
def pItems : Nat → Nat → P Expr
  | 0, _, _ => none
  | n + 1, stop, ts =>
    match expect stop ts with
    | some ts => some (.nil, ts)
    | none =>
      match pItem n ts with
      | some (e, ts) =>
        match expect (id! ",") ts with
        | some ts =>
          match pItems n stop ts with
          | some (es, ts) => some (.cons e es, ts)
          | none => none
        | none =>
          match expect stop ts with
          | some ts => some (.cons e .nil, ts)
          | none => none
      | none => none

/-- One argument or element, with or without a key. -/
def pItem : Nat → P Expr
  | 0, _ => none
  | n + 1, ts =>
    match ts with
    | .id x :: .op o :: ts' =>
      if o == id! ":" then
        match pExpr n true 1 ts' with
        | some (e, ts) => some (.kv x e, ts)
        | none => none
      else pExpr n true 1 ts
    | _ => pExpr n true 1 ts
end

/-- Expressions separated by commas, at least one. -/
def pList : Nat → Bool → P Expr
  | 0, _, _ => none
  | n + 1, lit, ts =>
    match pExpr n lit 1 ts with
    | some (e, ts) =>
      match expect (id! ",") ts with
      | some ts =>
        match pList n lit ts with
        | some (es, ts) => some (.cons e es, ts)
        | none => none
      | none => some (.cons e .nil, ts)
    | none => none

/-- A definition, an assignment, `++` or a call. -/
def pSimple (n : Nat) (lit : Bool) : P Stmt := fun ts =>
  match pList n lit ts with
  | some (l, .op o :: ts) =>
    if o == id! ":=" then
      match pList n lit ts with
      | some (r, ts) => some (.define l r, ts)
      | none => none
    else if o == id! "=" then
      match pList n lit ts with
      | some (r, ts) => some (.assign l r, ts)
      | none => none
    else if o == id! "+=" then
      match l, pList n lit ts with
      | .cons x .nil, some (.cons r .nil, ts) => some (.addAssign x r, ts)
      | _, _ => none
    else if o == id! "++" then
      match l with
      | .cons x .nil => some (.inc x, ts)
      | _ => none
    else
      match l with
      | .cons e .nil => some (.expr e, .op o :: ts)
      | _ => none
  | _ => none

mutual
/-- `{ statements }` -/
def pBlock : Nat → P Stmt
  | 0, _ => none
  | n + 1, ts =>
    match expect (id! "{") ts with
    | some ts =>
      match pStmts n ts with
      | some (s, ts) =>
        match expect (id! "}") ts with
        | some ts => some (.block s, ts)
        | none => none
      | none => none
    | none => none

/-- Statements up to `}`, `case` or `default`. -/
def pStmts : Nat → P Stmt
  | 0, _ => none
  | n + 1, ts =>
    match ts with
    | .op o :: ts' =>
      if o == id! "}" then some (.skip, ts)
      else if o == id! ";" then pStmts n ts'
      else pMore n ts
    | .id x :: _ => if x == id! "case" || x == id! "default" then some (.skip, ts) else pMore n ts
    | _ => pMore n ts

/-- A statement and those after it. -/
def pMore : Nat → P Stmt
  | 0, _ => none
  | n + 1, ts =>
    match pStmt n ts with
    | some (s, ts) =>
      match expect (id! ";") ts with
      | some ts =>
        match pStmts n ts with
        | some (r, ts) => some (.seq s r, ts)
        | none => none
      | none => none
    | none => none

/-- One statement. -/
def pStmt : Nat → P Stmt
  | 0, _ => none
  | n + 1, ts =>
    match ts with
    | .id x :: ts' =>
      if x == id! "return" then
        match expect (id! ";") ts' with
        | some _ => some (.ret .nil, ts')
        | none =>
          match pList n true ts' with
          | some (es, ts) => some (.ret es, ts)
          | none => none
      else if x == id! "break" then some (.brk, ts')
      else if x == id! "var" then
        match ident ts' with
        | some (y, ts) =>
          match pType n ts with
          | some (t, ts) => some (.var y t, ts)
          | none => none
        | none => none
      else if x == id! "if" then pIf n ts'
      else if x == id! "for" then pFor n ts'
      else if x == id! "switch" then
        match pExpr n false 1 ts' with
        | some (e, ts) =>
          match expect (id! "{") ts with
          | some ts =>
            match pCases n e ts with
            | some (s, ts) => some (.switch s, ts)
            | none => none
          | none => none
        | none => none
      else pSimple n true ts
    | _ => pSimple n true ts

/-- After `if`. -/
def pIf : Nat → P Stmt
  | 0, _ => none
  | n + 1, ts =>
    match pExpr n false 1 ts with
    | some (c, ts) =>
      match pBlock n ts with
      | some (t, ts) =>
        match expectId (id! "else") ts with
        | some ts =>
          match expectId (id! "if") ts with
          | some ts =>
            match pIf n ts with
            | some (e, ts) => some (.ite c t e, ts)
            | none => none
          | none =>
            match pBlock n ts with
            | some (e, ts) => some (.ite c t e, ts)
            | none => none
        | none => some (.ite c t .skip, ts)
      | none => none
    | none => none

/-- After `for`. -/
def pFor : Nat → P Stmt
  | 0, _ => none
  | n + 1, ts =>
    match pList n false ts with
    | some (l, .op o :: ts) =>
      if o == id! ":=" then
        match expectId (id! "range") ts with
        | some ts =>
          match pExpr n false 1 ts with
          | some (e, ts) =>
            match pBlock n ts with
            | some (b, ts) =>
              match l with
              | .cons (.name k) (.cons (.name v) .nil) => some (.range k v e b, ts)
              | .cons (.name k) .nil => some (.range k (id! "_") e b, ts)
              | _ => none
            | none => none
          | none => none
        | none =>
          match pList n false ts with
          | some (r, ts) =>
            match expect (id! ";") ts with
            | some ts =>
              match pExpr n false 1 ts with
              | some (c, ts) =>
                match expect (id! ";") ts with
                | some ts =>
                  match pSimple n false ts with
                  | some (post, ts) =>
                    match pBlock n ts with
                    | some (b, ts) => some (.loop (.define l r) c post b, ts)
                    | none => none
                  | none => none
                | none => none
              | none => none
            | none => none
          | none => none
      else
        match l with
        | .cons c .nil =>
          match pBlock n (.op o :: ts) with
          | some (b, ts) => some (.loop .skip c .skip b, ts)
          | none => none
        | _ => none
    | _ => none

/-- The cases of `switch e`, up to `}`; `default` comes last. -/
def pCases : Nat → Expr → P Stmt
  | 0, _, _ => none
  | n + 1, e, ts =>
    match ts with
    | .op o :: ts => if o == id! "}" then some (.skip, ts) else none
    | .id x :: ts =>
      if x == id! "case" then
        match pExpr n true 1 ts with
        | some (v, ts) =>
          match expect (id! ":") ts with
          | some ts =>
            match pStmts n ts with
            | some (b, ts) =>
              match pCases n e ts with
              | some (r, ts) => some (.ite (.bin (id! "==") e v) (.block b) r, ts)
              | none => none
            | none => none
          | none => none
        | none => none
      else if x == id! "default" then
        match expect (id! ":") ts with
        | some ts =>
          match pStmts n ts with
          | some (b, ts) =>
            match expect (id! "}") ts with
            | some ts => some (.block b, ts)
            | none => none
          | none => none
        | none => none
      else none
    | _ => none
end

/-- `name T, name T)`: parameters. -/
def pParams : Nat → P (List (Nat × Expr))
  | 0, _ => none
  | n + 1, ts =>
    match expect (id! ")") ts with
    | some ts => some ([], ts)
    | none =>
      match ident ts with
      | some (x, ts) =>
        match pType n ts with
        | some (t, ts) =>
          match expect (id! ",") ts with
          | some ts =>
            match pParams n ts with
            | some (ps, ts) => some ((x, t) :: ps, ts)
            | none => none
          | none =>
            match expect (id! ")") ts with
            | some ts => some ([(x, t)], ts)
            | none => none
        | none => none
      | none => none

/-- `T, T)`: result types. -/
def pTypes : Nat → P (List Expr)
  | 0, _ => none
  | n + 1, ts =>
    match pType n ts with
    | some (t, ts) =>
      match expect (id! ",") ts with
      | some ts =>
        match pTypes n ts with
        | some (us, ts) => some (t :: us, ts)
        | none => none
      | none =>
        match expect (id! ")") ts with
        | some ts => some ([t], ts)
        | none => none
    | none => none

/-- The result types of a function: none, one, or several in parentheses. -/
def pResults (n : Nat) : P (List Expr) := fun ts =>
  match ts with
  | .op o :: ts' =>
    if o == id! "{" then some ([], ts)
    else if o == id! "(" then pTypes n ts'
    else
      match pType n ts with
      | some (t, ts) => some ([t], ts)
      | none => none
  | _ =>
    match pType n ts with
    | some (t, ts) => some ([t], ts)
    | none => none

/-- After the receiver: name, parameters, results, body. -/
def pFuncRest (n recv recvName : Nat) : P Func := fun ts =>
  match ident ts with
  | some (f, ts) =>
    match expect (id! "(") ts with
    | some ts =>
      match pParams n ts with
      | some (ps, ts) =>
        match pResults n ts with
        | some (rs, ts) =>
          match pBlock n ts with
          | some (.block b, ts) => some (⟨recv, recvName, f, ps, rs, b⟩, ts)
          | _ => none
        | none => none
      | none => none
    | none => none
  | none => none

/-- After `func`. -/
def pFunc (n : Nat) : P Func := fun ts =>
  match expect (id! "(") ts with
  | some ts =>
    match pParams n ts with
    | some ([(x, .un _ (.name t))], ts) => pFuncRest n t x ts
    | _ => none
  | none => pFuncRest n 0 0 ts

/-- The paths of an import declaration, up to `)`. -/
def pImports : Nat → P (List (List Nat))
  | 0, _ => none
  | n + 1, ts =>
    match ts with
    | .str s :: .op _ :: ts =>
      match pImports n ts with
      | some (ps, ts) => some (s :: ps, ts)
      | none => none
    | .op o :: ts => if o == id! ")" then some ([], ts) else none
    | _ => none

/-- The fields of a struct type, up to `}`. -/
def pStruct : Nat → P (List (Nat × Expr))
  | 0, _ => none
  | n + 1, ts =>
    match expect (id! "}") ts with
    | some ts => some ([], ts)
    | none =>
      match ident ts with
      | some (x, ts) =>
        match pType n ts with
        | some (t, ts) =>
          match expect (id! ";") ts with
          | some ts =>
            match pStruct n ts with
            | some (fs, ts) => some ((x, t) :: fs, ts)
            | none => none
          | none => none
        | none => none
      | none => none

/-- One declaration. -/
def pDecl (n : Nat) : P Decl := fun ts =>
  match ts with
  | .id x :: ts =>
    if x == id! "func" then
      match pFunc n ts with
      | some (f, ts) => some (.func f, ts)
      | none => none
    else if x == id! "import" then
      match expect (id! "(") ts with
      | some ts =>
        match pImports n ts with
        | some (ps, ts) => some (.imports ps, ts)
        | none => none
      | none => none
    else if x == id! "var" then
      match ident ts with
      | some (y, ts) =>
        match expect (id! "=") ts with
        | some ts =>
          match pExpr n true 1 ts with
          | some (e, ts) => some (.varInit y e, ts)
          | none => none
        | none =>
          match pType n ts with
          | some (t, ts) => some (.var y t, ts)
          | none => none
      | none => none
    else if x == id! "type" then
      match ident ts with
      | some (y, ts) =>
        match expectId (id! "struct") ts with
        | some ts =>
          match expect (id! "{") ts with
          | some ts =>
            match pStruct n ts with
            | some (fs, ts) => some (.struct y fs, ts)
            | none => none
          | none => none
        | none =>
          match pType n ts with
          | some (t, ts) => some (.type y t, ts)
          | none => none
      | none => none
    else none
  | _ => none

/-- Declarations, each with its semicolon, to the end. -/
def pDecls : Nat → List Tok → Option (List Decl)
  | 0, _ => none
  | _ + 1, [] => some []
  | n + 1, ts =>
    match pDecl n ts with
    | some (d, ts) =>
      match expect (id! ";") ts with
      | some ts =>
        match pDecls n ts with
        | some ds => some (d :: ds)
        | none => none
      | none => none
    | none => none

/-- The declarations of a file of package `btc`. The depth is bounded by the number of tokens. -/
def parse (text : List Char) : Option (List Decl) :=
  match lex text with
  | some (.id p :: .id b :: .op s :: ts) =>
    if p == id! "package" && b == id! "btc" && s == id! ";" then pDecls (10 * ts.length + 10) ts else none
  | _ => none

end Btc.Source
