import Verif.Spec.Overload
import Verif.Spec.Parse
import Verif.Model.Source

/-!
# What program text means

Tokens, literals and expressions as the C++ standard defines them, and the numbers they stand for.
Of the model only the data types are used.
-/

namespace Ieme.Source

open Overload Lit

/-! ## Tokens -/

/-- The whitespace characters. -/
def blanks : List Char := [' ', '\t', '\n', '\x0b', '\x0c']

/-- *nondigit* -/
def nondigits : List Char := "abcdefghijklmnopqrstuvwxyzABCDEFGHIJKLMNOPQRSTUVWXYZ_".toList

/-- *pp-number* ([lex.ppnumber]) -/
inductive PPNumber : List Char → Prop
  | digit {d} : d ∈ decDigits → PPNumber [d]
  | point {d} : d ∈ decDigits → PPNumber ['.', d]
  | ident {s d} : PPNumber s → d ∈ decDigits ++ nondigits → PPNumber (s ++ [d])
  | sep {s d} : PPNumber s → d ∈ decDigits ++ nondigits → PPNumber (s ++ ['\'', d])
  | sign {s e d} : PPNumber s → e ∈ ['e', 'E', 'p', 'P'] → d ∈ ['+', '-'] → PPNumber (s ++ [e, d])
  | dot {s} : PPNumber s → PPNumber (s ++ ['.'])

/-- The operators. -/
def symbols : List (Char × Tok) := [('+', .plus), ('-', .minus), ('*', .star), ('/', .slash),
  ('%', .percent), ('(', .lpar), (')', .rpar)]

/-- Longer operators and comments that start with one of them. -/
def longerTokens : List (List Char) := [['+', '+'], ['+', '='], ['-', '-'], ['-', '='], ['-', '>'],
  ['*', '='], ['/', '/'], ['/', '*'], ['/', '='], ['%', '='], ['%', '>'], ['%', ':']]

/-- The text consists of these tokens, each the longest that starts at its place, and whitespace. -/
inductive Lexes : List Char → List Tok → Prop
  | nil : Lexes [] []
  | blank {c t ts} : c ∈ blanks → Lexes t ts → Lexes (c :: t) ts
  | num {x t ts} : PPNumber x → (∀ y z, t = y ++ z → y ≠ [] → ¬ PPNumber (x ++ y)) → Lexes t ts →
      Lexes (x ++ t) (.num x :: ts)
  | symbol {c k t ts} : (c, k) ∈ symbols → (∀ d u, t = d :: u → [c, d] ∉ longerTokens) → Lexes t ts →
      Lexes (c :: t) (k :: ts)

/-- The characters of a token. -/
def Tok.text : Tok → List Char
  | .num x => x
  | .plus => ['+']
  | .minus => ['-']
  | .star => ['*']
  | .slash => ['/']
  | .percent => ['%']
  | .lpar => ['(']
  | .rpar => [')']

/-- The two tokens stay apart when they are written without a space: two numbers do not, a number that
ends like an exponent and a sign do not, and neither do symbols that make a longer one. -/
def Apart : Tok → Tok → Prop
  | .num _, .num _ => False
  | .num x, .plus => ∀ c ∈ x.getLast?, c ∉ ['e', 'E', 'p', 'P']
  | .num x, .minus => ∀ c ∈ x.getLast?, c ∉ ['e', 'E', 'p', 'P']
  | .num _, _ => True
  | _, .num _ => True
  | a, b => a.text ++ b.text ∉ longerTokens

/-- The tokens with the blanks `w` behind each; where there are none the next token is apart. -/
inductive Laid : List Tok → List Char → Prop
  | nil : Laid [] []
  | cons {k ts w text} : (∀ c ∈ w, c ∈ blanks) → (w = [] → ∀ k' ∈ ts.head?, Apart k k') →
      (∀ x, k = .num x → PPNumber x) → Laid ts text → Laid (k :: ts) (k.text ++ w ++ text)

/-! ## Literals -/

/-- *octal-digit* -/
def octDigits : List Char := ['0', '1', '2', '3', '4', '5', '6', '7']

/-- *integer-literal* without suffix, its value, and whether it is a decimal one ([lex.icon]) -/
inductive IntLit : List Char → ℕ → Bool → Prop
  | dec {s} : DigitSeq decDigits s → s.head? ≠ some '0' → IntLit s (seqValue 10 s) true
  | oct {s} : DigitSeq octDigits s → s.head? = some '0' → IntLit s (seqValue 8 s) false
  | hex {c s} : c ∈ ['x', 'X'] → DigitSeq hexDigits s → IntLit ('0' :: c :: s) (seqValue 16 s) false
  | bin {c s} : c ∈ ['b', 'B'] → DigitSeq ['0', '1'] s → IntLit ('0' :: c :: s) (seqValue 2 s) false

/-- The types that an integer literal can have, in order. -/
def literalTypes (decimal : Bool) : List IntTy := if decimal then [i32, i64] else [i32, u32, i64, u64]

/-- *unsigned-suffix*, and *long-suffix* or *long-long-suffix* -/
def unsignedSuffixes : List (List Char) := [['u'], ['U']]
@[inherit_doc unsignedSuffixes]
def longSuffixes : List (List Char) := [['l'], ['L'], ['l', 'l'], ['L', 'L']]

/-- *integer-suffix* ([lex.icon]), whether it has an unsigned part and whether it has a long one -/
inductive IntSuffix : List Char → Bool → Bool → Prop
  | u {a} : a ∈ unsignedSuffixes → IntSuffix a true false
  | l {b} : b ∈ longSuffixes → IntSuffix b false true
  | ul {a b} : a ∈ unsignedSuffixes → b ∈ longSuffixes → IntSuffix (a ++ b) true true
  | lu {a b} : a ∈ unsignedSuffixes → b ∈ longSuffixes → IntSuffix (b ++ a) true true

/-- The types that an integer literal with this suffix can have, in order. -/
def suffixTypes : (decimal u l : Bool) → List IntTy
  | decimal, false, false => literalTypes decimal
  | _, true, false => [u32, u64]
  | true, false, true => [i64]
  | false, false, true => [i64, u64]
  | _, true, true => [u64]

/-- The number token is this literal. -/
inductive IsLiteral : List Char → Src → Prop
  | int {s n d T} : IntLit s n d → (literalTypes d).find? (fun T => decide (T.InRange n)) = some T →
      IsLiteral s (.int T n)
  | suffixed {s t n d u l T} : IntLit s n d → IntSuffix t u l →
      (suffixTypes d u l).find? (fun T => decide (T.InRange n)) = some T → IsLiteral (s ++ t) (.int T n)
  | fr {s n d} : IntLit s n d → u64.InRange n → IsLiteral (s ++ ['_', 'f', 'r']) (.fr n)
  | dec {s} : IsLiteral (s ++ ['_', 'd', 'e', 'c']) (.dec s)

/-! ## Grammar -/

/-- The operators of each level. -/
def additive : List (Tok × ArithOp) := [(.plus, .plus), (.minus, .minus)]
@[inherit_doc additive]
def multiplicative : List (Tok × ArithOp) :=
  [(.star, .multiplies), (.slash, .divides), (.percent, .modulus)]

mutual

/-- *additive-expression* ([expr.add]) -/
inductive Additive : Src → List Tok → Prop
  | up {e ts} : Multiplicative e ts → Additive e ts
  | bin {k op l r a b} : (k, op) ∈ additive → Additive l a → Multiplicative r b →
      Additive (.bin op l r) (a ++ k :: b)

/-- *multiplicative-expression* ([expr.mul]) -/
inductive Multiplicative : Src → List Tok → Prop
  | up {e ts} : Unary e ts → Multiplicative e ts
  | bin {k op l r a b} : (k, op) ∈ multiplicative → Multiplicative l a → Unary r b →
      Multiplicative (.bin op l r) (a ++ k :: b)

/-- *unary-expression* and *primary-expression* ([expr.unary], [expr.prim]) -/
inductive Unary : Src → List Tok → Prop
  | literal {x e} : IsLiteral x e → Unary e [.num x]
  | pos {e ts} : Unary e ts → Unary (.pos e) (.plus :: ts)
  | neg {e ts} : Unary e ts → Unary (.neg e) (.minus :: ts)
  | par {e ts} : Additive e ts → Unary e (.lpar :: ts ++ [.rpar])

end

/-! ## Meaning -/

/-- The type and the exact value of an expression: `_dec` stands for the number its literal shows,
`_fr` for its integer, and the division of two integers is truncated. -/
inductive Means : Src → Ty → ℚ → Prop
  | int {T n} : Means (.int T n) (.int T) n
  | fr {n} : Means (.fr n) (.lit false .defaults) n
  | dec {l : FloatLit} : l.Valid → l.point = true →
      Means (.dec l.render) (.frac i64 .defaults) l.value
  | pos {e t x} : Means e t x → Means (.pos e) t x
  | neg {e t x} : Means e t x → Means (.neg e) t.neg (-x)
  | bin {op l r a b t x y z} : Means l a x → Means r b y → Ty.bin op a b = some t →
      binValue op a b x y = some z → Means (.bin op l r) t z

/-- Every integer literal has a signed type, and every `_fr` literal fits `int`. -/
def Src.Small : Src → Prop
  | .int T _ => T.signed = true
  | .fr n => n ≤ 2147483647
  | .dec _ => True
  | .pos e => e.Small
  | .neg e => e.Small
  | .bin _ l r => l.Small ∧ r.Small

end Ieme.Source
