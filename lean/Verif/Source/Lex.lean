import Verif.Source.Syntax

/-!
# Tokens

A finite automaton over the characters, with Go's rule for the semicolons that are not written (Go specification,
"Semicolons": at the end of a line after an identifier, a literal, `break`, `return`, `++`, `)`, `]` or `}`).
-/

namespace Btc.Source

/-- Tokens. Keywords are identifiers; the semicolon is an operator. -/
inductive Tok where
  | id (x : Nat)
  | num (n : Nat)
  | str (s : List Nat)
  | op (o : Nat)
deriving DecidableEq, Repr

/-- What the automaton is in the middle of. -/
inductive Mode where
  | code
  | ident (acc : Nat)
  | num (acc : Nat)
  /-- the characters so far, last first -/
  | str (acc : List Nat)
  /-- one operator character read -/
  | op (o : Nat)
  | line
  | block
  /-- in a block comment, after a star -/
  | star

/-- `a-z A-Z _`, and everything outside ASCII (the Go files have such letters in strings only). -/
def isLetter (c : Nat) : Bool := (97 ≤ c && c ≤ 122) || (65 ≤ c && c ≤ 90) || c == 95

/-- `0-9` -/
def isDigit (c : Nat) : Bool := 48 ≤ c && c ≤ 57

/-- The operators of two characters. -/
def twoChar : List Nat :=
  [id! ":=", id! "==", id! "!=", id! "+=", id! "++", id! "||", id! "&&", id! "<=", id! ">=", id! "-=", id! "--"]

/-- Keywords after which a line may end without a semicolon. -/
def keywords : List Nat :=
  [id! "package", id! "import", id! "func", id! "var", id! "type", id! "struct", id! "if", id! "else", id! "for",
    id! "range", id! "switch", id! "case", id! "default"]

/-- Whether a line that ends with this token gets a semicolon. -/
def endsStatement : Tok → Bool
  | .id x => !keywords.contains x
  | .num _ => true
  | .str _ => true
  | .op o => o == id! ")" || o == id! "]" || o == id! "}" || o == id! "++" || o == id! "--"

/-- The end of a line; `out` are the tokens so far, last first. -/
def newline : List Tok → List Tok
  | [] => []
  | t :: out => if endsStatement t then .op (id! ";") :: t :: out else t :: out

/-- The first character of something. -/
def start (c : Nat) (out : List Tok) : Option (Mode × List Tok) :=
  if c == 10 then some (.code, newline out)
  else if c == 32 || c == 9 then some (.code, out)
  else if isLetter c then some (.ident c, out)
  else if isDigit c then some (.num (c - 48), out)
  else if c == 34 then some (.str [], out)
  else if c == id! "(" || c == id! ")" || c == id! "[" || c == id! "]" || c == id! "{" || c == id! "}" || c == id! "," ||
    c == id! "." || c == id! ";" || c == id! "*" then some (.code, .op c :: out)
  else if c == id! "+" || c == id! "-" || c == id! "/" || c == id! ":" || c == id! "=" || c == id! "!" || c == id! "<" ||
    c == id! ">" || c == id! "|" || c == id! "&" then some (.op c, out)
  else none

/-- One character. -/
def step (c : Nat) : Mode → List Tok → Option (Mode × List Tok)
  | .code, out => start c out
  | .ident acc, out => if isLetter c || isDigit c then some (.ident (256 * acc + c), out) else start c (.id acc :: out)
  | .num acc, out =>
    if isDigit c then some (.num (10 * acc + (c - 48)), out) else if isLetter c then none else start c (.num acc :: out)
  | .str acc, out =>
    if c == 34 then some (.code, .str acc.reverse :: out)
    else if c == 92 || c == 10 then none                   -- escapes do not occur
    else some (.str (c :: acc), out)
  | .op o, out =>
    if o == id! "/" && c == id! "/" then some (.line, out)
    else if o == id! "/" && c == id! "*" then some (.block, out)
    else if twoChar.contains (256 * o + c) then some (.code, .op (256 * o + c) :: out)
    else start c (.op o :: out)
  | .line, out => if c == 10 then some (.code, newline out) else some (.line, out)
  | .block, out => if c == id! "*" then some (.star, out) else if c == 10 then some (.block, newline out) else some (.block, out)
  | .star, out => if c == id! "/" then some (.code, out) else if c == id! "*" then some (.star, out) else some (.block, out)

/-- All characters, from a mode. -/
def lexFrom : List Char → Mode → List Tok → Option (List Tok)
  | [], .code, out => some (newline out).reverse
  | [], .ident acc, out => some (newline (.id acc :: out)).reverse
  | [], _, _ => none
  | c :: cs, m, out =>
    match step c.toNat m out with
    | some (m', out') => lexFrom cs m' out'
    | none => none

/-- The tokens of a text. -/
def lex (text : List Char) : Option (List Tok) := lexFrom text .code []

end Btc.Source
