import Verif.Model.TypedExpr
import Verif.Model.Parse

/-!
# From program text to values

The literals of `/repo/include/ieme/fraction_literals.hpp` are made to be written down in programs:
`1/2_fr + 0.25_dec`.  Here is the part of a compiler that reads such an expression: the splitting
into tokens ([lex.pptoken], [lex.ppnumber]), the meaning of a literal token ([lex.icon], [lex.ext])
and the grammar of `+ - * / %`, signs and parentheses ([expr.unary], [expr.mul], [expr.add]).  The
operators are those of `Verif/Model/TypedExpr.lean`.

Simplified: text with comments, other operators or other tokens is rejected; the ending of a literal
is `_fr`, `_dec` or a suffix made of `u` and `l`; what stands before `_dec` is handed to the literal operator
even if it is not a literal, which the compiler would reject before the operator throws; `int` has 32
bits, `long` and `long long` have 64.
-/

namespace Ieme.Source

open Overload

/-- Tokens. -/
inductive Tok where
  /-- a number with its ending, as it is written -/
  | num (text : List Char)
  | plus | minus | star | slash | percent | lpar | rpar
deriving DecidableEq, Repr

/-- Whitespace ([lex.pptoken]). -/
def isBlank (c : Char) : Bool := c = ' ' || c = '\t' || c = '\n' || c = '\x0b' || c = '\x0c'

/-- *digit* -/
def isDigit (c : Char) : Bool := '0' ≤ c && c ≤ '9'

/-- *digit* or *nondigit*: a character of an identifier. -/
def isIdent (c : Char) : Bool :=
  isDigit c || ('a' ≤ c && c ≤ 'z') || ('A' ≤ c && c ≤ 'Z') || c = '_'

/-- Two characters that continue a number together: an exponent with its sign, or a separator with
what it separates. -/
def isPair (c d : Char) : Bool :=
  ((c = 'e' || c = 'E' || c = 'p' || c = 'P') && (d = '+' || d = '-')) || (c = '\'' && isIdent d)

/-- The continuation of a *pp-number*, as long as possible, and what follows it. -/
def numTail : List Char → List Char × List Char
  | [] => ([], [])
  | [c] => if isIdent c || c = '.' then ([c], []) else ([], [c])
  | c :: d :: t =>
    if isPair c d then (c :: d :: (numTail t).1, (numTail t).2)
    else if isIdent c || c = '.' then (c :: (numTail (d :: t)).1, (numTail (d :: t)).2)
    else ([], c :: d :: t)

/-- The first characters that make a number. -/
def startsNum (c : Char) (t : List Char) : Bool :=
  isDigit c || (c = '.' && match t with | d :: _ => isDigit d | [] => false)

/-- Operators of one character. -/
def symbol (c : Char) : Option Tok :=
  if c = '+' then some .plus else if c = '-' then some .minus else if c = '*' then some .star
  else if c = '/' then some .slash else if c = '%' then some .percent
  else if c = '(' then some .lpar else if c = ')' then some .rpar else none

/-- The two characters begin a longer token or a comment. -/
def isLonger (c d : Char) : Bool :=
  (c = '+' && (d = '+' || d = '=')) || (c = '-' && (d = '-' || d = '=' || d = '>')) ||
  (c = '*' && d = '=') || (c = '/' && (d = '/' || d = '*' || d = '=')) ||
  (c = '%' && (d = '=' || d = '>' || d = ':'))

/-- The character does not stand alone before this text. -/
def isGlued (c : Char) : List Char → Bool
  | d :: _ => isLonger c d
  | [] => false

/-- Splitting into tokens, each as long as possible; with at most `fuel` steps. -/
def lexFrom : (fuel : Nat) → List Char → Option (List Tok)
  | 0, _ => none
  | _ + 1, [] => some []
  | n + 1, c :: t =>
    if isBlank c then lexFrom n t
    else if startsNum c t then (lexFrom n (numTail t).2).map (Tok.num (c :: (numTail t).1) :: ·)
    else
      match symbol c with
      | none => none
      | some k =>
        if isGlued c t then none else (lexFrom n t).map (k :: ·)

/-- Splitting into tokens. -/
def lex (text : List Char) : Option (List Tok) := lexFrom (text.length + 1) text

/-! ## Literals -/

/-- Expressions. -/
inductive Src where
  /-- an integer literal -/
  | int (T : IntTy) (n : Nat)
  /-- `n_fr` -/
  | fr (n : Nat)
  /-- `text_dec` -/
  | dec (text : List Char)
  | pos (e : Src)
  | neg (e : Src)
  | bin (op : ArithOp) (l r : Src)
deriving DecidableEq

/-- Digits with single separators between them. -/
def digitSeq (ok : Char → Bool) : List Char → Bool
  | [] => false
  | [d] => ok d
  | d :: e :: t => ok d && (digitSeq ok (e :: t) || (e = '\'' && digitSeq ok t))

/-- *octal-digit*, *binary-digit*, *hexadecimal-digit* -/
def isOct (c : Char) : Bool := '0' ≤ c && c ≤ '7'
@[inherit_doc isOct] def isBin (c : Char) : Bool := c = '0' || c = '1'
@[inherit_doc isOct] def isHex (c : Char) : Bool :=
  isDigit c || ('a' ≤ c && c ≤ 'f') || ('A' ≤ c && c ≤ 'F')

/-- The value of a digit. -/
def digit (c : Char) : Nat :=
  if isDigit c then c.toNat - 48 else if 'a' ≤ c then c.toNat - 87 else c.toNat - 55

/-- The value of a digit sequence. -/
def number (base : Nat) (s : List Char) : Nat :=
  s.foldl (fun v c => if c = '\'' then v else v * base + digit c) 0

/-- The value of an *integer-literal* without suffix, and whether it is a decimal one. -/
def intValue (s : List Char) : Option (Nat × Bool) :=
  match s with
  | '0' :: 'x' :: t | '0' :: 'X' :: t => if digitSeq isHex t then some (number 16 t, false) else none
  | '0' :: 'b' :: t | '0' :: 'B' :: t => if digitSeq isBin t then some (number 2 t, false) else none
  | '0' :: _ => if digitSeq isOct s then some (number 8 s, false) else none
  | _ => if digitSeq isDigit s then some (number 10 s, true) else none

/-- The type of an integer literal: the first of the list that holds it ([lex.icon]); `u` and `l` tell
whether these letters are in the suffix. -/
def intType (n : Nat) (decimal u l : Bool) : Option IntTy :=
  if !u && !l && (n : Int) ≤ i32.max then some i32
  else if (u || !decimal) && !l && (n : Int) ≤ u32.max then some u32
  else if !u && (n : Int) ≤ i64.max then some i64
  else if (u || !decimal) && (n : Int) ≤ u64.max then some u64
  else none

/-- *unsigned-suffix* -/
def isU (c : Char) : Bool := c = 'u' || c = 'U'

/-- *long-suffix* and *long-long-suffix*, with equal letters -/
def isL (c : Char) : Bool := c = 'l' || c = 'L'

/-- The text is nothing (`false`), a *long-suffix* or a *long-long-suffix* (`true`). -/
def longPart : List Char → Option Bool
  | [] => some false
  | [a] => if isL a then some true else none
  | [a, b] => if isL a && a = b then some true else none
  | _ => none

/-- *integer-suffix* or nothing: whether there are `u` and `l`. -/
def suffix (s : List Char) : Option (Bool × Bool) :=
  match s with
  | [] => some (false, false)
  | c :: t =>
    if isU c then (longPart t).map (true, ·)
    else if isU ((c :: t).getLast?.getD c) then (longPart (c :: t).dropLast).map (true, ·)
    else (longPart (c :: t)).map (false, ·)

/-- The text without the letters of a suffix behind it, and these. -/
def splitSuffix (s : List Char) : List Char × List Char :=
  ((s.reverse.dropWhile fun c => isU c || isL c).reverse,
    (s.reverse.takeWhile fun c => isU c || isL c).reverse)

/-- An integer literal, perhaps with suffix. -/
def intLiteral (text : List Char) : Option Src :=
  (suffix (splitSuffix text).2).bind fun x =>
    (intValue (splitSuffix text).1).bind fun v =>
      (intType v.1 v.2 x.1 x.2).map fun T => .int T v.1

/-- What stands before an ending. -/
def before (ending text : List Char) : Option (List Char) :=
  if ending <:+ text then some (text.take (text.length - ending.length)) else none

/-- The meaning of a number token; `none` if it is none.  `_fr` takes an `unsigned long long`,
`/repo/include/ieme/fraction_literals.hpp:34-35`, `_dec` the characters, lines 56-57. -/
def literal (text : List Char) : Option Src :=
  match before "_fr".toList text with
  | some s =>
    (intValue s).bind fun v => if (v.1 : Int) ≤ u64.max then some (.fr v.1) else none
  | none =>
    match before "_dec".toList text with
    | some s => some (.dec s)
    | none => intLiteral text

/-! ## Grammar -/

/-- What has been read and waits for an operand: an open parenthesis, a sign, an operator with its
left operand. -/
inductive Frame where
  | par
  | pos
  | neg
  | mul (op : ArithOp) (l : Src)
  | add (op : ArithOp) (l : Src)

/-- Signs and multiplications take the operand at once. -/
def settle : List Frame → Src → List Frame × Src
  | .pos :: st, e => settle st (.pos e)
  | .neg :: st, e => settle st (.neg e)
  | .mul op l :: st, e => settle st (.bin op l e)
  | st, e => (st, e)

/-- A waiting addition takes the operand. -/
def close : List Frame → Src → List Frame × Src
  | .add op l :: st, e => (st, .bin op l e)
  | st, e => (st, e)

/-- *multiplicative* operators -/
def mulOp : Tok → Option ArithOp
  | .star => some .multiplies
  | .slash => some .divides
  | .percent => some .modulus
  | _ => none

/-- *additive* operators -/
def addOp : Tok → Option ArithOp
  | .plus => some .plus
  | .minus => some .minus
  | _ => none

mutual

/-- Reading where an operand must come. -/
def operand (st : List Frame) : List Tok → Option Src
  | [] => none
  | .plus :: ts => operand (.pos :: st) ts
  | .minus :: ts => operand (.neg :: st) ts
  | .lpar :: ts => operand (.par :: st) ts
  | .num x :: ts =>
    match literal x with
    | some e => operator (settle st e).1 (settle st e).2 ts
    | none => none
  | _ :: _ => none

/-- Reading behind the operand `e`. -/
def operator (st : List Frame) (e : Src) : List Tok → Option Src
  | [] => match close st e with
    | ([], e') => some e'
    | _ => none
  | .rpar :: ts => match close st e with
    | (.par :: st', e') => operator (settle st' e').1 (settle st' e').2 ts
    | _ => none
  | t :: ts =>
    match mulOp t with
    | some op => operand (.mul op e :: st) ts
    | none =>
      match addOp t with
      | some op => operand (.add op (close st e).2 :: (close st e).1) ts
      | none => none

end

/-- The expression that a text stands for; `none` if the compiler rejects it. -/
def compile (text : List Char) : Option Src := (lex text).bind (operand [])

/-! ## Evaluation -/

/-- The typed expression, with the calls of `_dec` made.  `n_fr` is a `denominator_literal<false>`,
`/repo/include/ieme/fraction_literals.hpp:34-35,70-74`; `_dec` gives a `fraction<std::intmax_t>`,
lines 56-57; both have the default policy. -/
def Src.typed : Src → Res TExpr
  | .int T n => pure (.leaf (.int T) (.int n))
  | .fr n => pure (.leaf (.lit false .defaults) (.lit n))
  | .dec s => do return .leaf (.frac i64 .defaults) (.frac (← Parse.dec s))
  | .pos e => do return .pos (← e.typed)
  | .neg e => do return .neg (← e.typed)
  | .bin op l r => do
    let a ← l.typed
    let b ← r.typed
    return .bin op a b

/-- The value of an expression. -/
def Src.eval (e : Src) : Res Val := do (← e.typed).eval

/-- The value of a text; ill-formed if the compiler rejects it. -/
def run (text : List Char) : Res Val :=
  match compile text with
  | some e => e.eval
  | none => .fault .illFormed

end Ieme.Source
