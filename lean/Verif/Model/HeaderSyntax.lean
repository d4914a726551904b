import Verif.Model.HeaderNames

/-!
# The text of the headers as programs: tokens, macros and grammar

Nothing here models a function of `/repo`; it models the part of the C++ grammar in which the
function definitions of `/repo/include/ieme` are written.  The text of the headers
(`Verif/Model/HeaderText.lean`) is cut into tokens, function-like macros are expanded
(`/repo/include/ieme/fraction.hpp:587-711`), and the definitions of functions, variable templates
and classes are parsed; `Verif/Model/HeaderEval.lean` evaluates them.

Simplifications.  `const`, `constexpr`, `noexcept`, `static`, `typename` and `&` are read and
forgotten, apart from the `const` after the parameters of a member function.  Default template
arguments are skipped (`Verif/Model/Overload.lean` and `Verif/Model/Config.lean` are about those),
and so are namespace-level `using` declarations, `#if` lines (both branches are read, they contain
only such declarations), and defaulted, deleted and befriended functions; definitions
with a body that can not be read are counted by `skipped`.
-/

namespace Ieme.Header

/-! ## Tokens -/

inductive Tok where
  | id (n : Nat)
  | num (n : Nat)
  | sym (n : Nat)
  /-- a character or string literal, contents dropped -/
  | lit
deriving DecidableEq, Repr

def isIdStart (b : Nat) : Bool :=
  (97 ≤ b && b ≤ 122) || (65 ≤ b && b ≤ 90) || b == 95

def isDigit (b : Nat) : Bool := 48 ≤ b && b ≤ 57

/-- What has been read of the token in progress. -/
inductive LexState where
  | none
  | ident (n : Nat)
  | number (n : Nat)
  | suffix (n : Nat)
  | symbol (b : Nat)
  /-- inside a literal closed by `q` -/
  | quoted (q : Nat)
  /-- after a backslash inside a literal closed by `q` -/
  | escaped (q : Nat)
  | comment

/-- The state after the first byte of a token. -/
def LexState.start (b : Nat) : LexState :=
  if b == 32 then .none
  else if isIdStart b then .ident b
  else if isDigit b then .number (b - 48)
  else if b == 34 || b == 39 then .quoted b
  else .symbol b

/-- The symbols of two characters. -/
def twoChar : List Nat :=
  [S.scope, S.and, S.or, S.eqeq, S.ne, S.le, S.ge, S.shl, S.plusEq, S.minusEq, S.starEq, S.slashEq,
    S.percentEq, S.arrow, S.paste, S.incr]

/-- The tokens of a line. -/
def lexLine : LexState → List Nat → List Tok
  | .none, [] => []
  | .ident n, [] => [.id n]
  | .number n, [] => [.num n]
  | .suffix n, [] => [.num n]
  | .symbol b, [] => [.sym b]
  | .quoted _, [] => [.lit]
  | .escaped _, [] => [.lit]
  | .comment, [] => []
  | .none, b :: rest => lexLine (.start b) rest
  | .ident n, b :: rest =>
    if isIdStart b || isDigit b then lexLine (.ident (n * 256 + b)) rest
    else .id n :: lexLine (.start b) rest
  | .number n, b :: rest =>
    if isDigit b then lexLine (.number (n * 10 + (b - 48))) rest
    else if isIdStart b then lexLine (.suffix n) rest
    else .num n :: lexLine (.start b) rest
  | .suffix n, b :: rest =>
    if isIdStart b || isDigit b then lexLine (.suffix n) rest
    else .num n :: lexLine (.start b) rest
  | .symbol c, b :: rest =>
    if c == 47 && b == 47 then lexLine .comment rest
    else if twoChar.contains (c * 256 + b) then .sym (c * 256 + b) :: lexLine .none rest
    else .sym c :: lexLine (.start b) rest
  | .quoted q, b :: rest =>
    if b == 92 then lexLine (.escaped q) rest
    else if b == q then .lit :: lexLine .none rest
    else lexLine (.quoted q) rest
  | .escaped q, _ :: rest => lexLine (.quoted q) rest
  | .comment, _ :: rest => lexLine .comment rest

/-- The bytes of a line. -/
def bytes (line : String) : List Nat := line.toByteArray.data.toList.map UInt8.toNat

/-! ## Macros -/

structure Macro where
  name : Nat
  params : List Nat
  body : List Tok
deriving DecidableEq, Repr

/-- The names between commas up to the closing parenthesis, and what follows. -/
def macroParams : List Tok → List Nat × List Tok
  | .id n :: rest => let r := macroParams rest; (n :: r.1, r.2)
  | .sym s :: rest => if s == S.rpar then ([], rest) else macroParams rest
  | _ :: rest => macroParams rest
  | [] => ([], [])

def continued (line : List Tok) : Bool := line.getLast? == some (.sym S.backslash)

def withoutBackslash (line : List Tok) : List Tok := if continued line then line.dropLast else line

/-- Separates macro definitions from program text.  `open?` is the macro whose definition continues
on this line.  All other directives are dropped. -/
def directives : Option Macro → List (List Tok) → List Macro × List Tok
  | _, [] => ([], [])
  | some m, line :: rest =>
    let m' := { m with body := m.body ++ withoutBackslash line }
    if continued line then directives (some m') rest
    else let r := directives none rest; (m' :: r.1, r.2)
  | none, line :: rest =>
    match line with
    | .sym h :: .id d :: .id n :: .sym p :: more =>
      if h == S.hash && d == N.«define» && p == S.lpar then
        let q := macroParams more
        let m : Macro := ⟨n, q.1, withoutBackslash q.2⟩
        if continued line then directives (some m) rest
        else let r := directives none rest; (m :: r.1, r.2)
      else if h == S.hash then directives none rest
      else let r := directives none rest; (r.1, line ++ r.2)
    | .sym h :: _ =>
      if h == S.hash then directives none rest
      else let r := directives none rest; (r.1, line ++ r.2)
    | _ => let r := directives none rest; (r.1, line ++ r.2)

/-- The arguments of a macro call after its opening parenthesis, and what follows the closing one.
The arguments of the calls in `/repo/include/ieme/fraction.hpp` contain no parentheses. -/
def macroArgs : List Tok → List (List Tok) × List Tok
  | [] => ([[]], [])
  | t :: rest =>
    if t = .sym S.rpar then ([[]], rest)
    else
      let r := macroArgs rest
      if t = .sym S.comma then ([] :: r.1, r.2)
      else match r.1 with
        | a :: as => ((t :: a) :: as, r.2)
        | [] => ([[t]], r.2)

def subst (ps : List (Nat × List Tok)) : List Tok → List Tok
  | .id n :: rest =>
    match ps.lookup n with
    | some ts => ts ++ subst ps rest
    | none => .id n :: subst ps rest
  | t :: rest => t :: subst ps rest
  | [] => []

/-- `a ## b` becomes one symbol. -/
def paste : List Tok → List Tok
  | .sym a :: .sym p :: .sym b :: rest =>
    if p == S.paste then .sym (a * 256 + b) :: paste rest
    else .sym a :: paste (.sym p :: .sym b :: rest)
  | t :: rest => t :: paste rest
  | [] => []

/-- Expands the macros; `fuel` bounds the number of tokens looked at. -/
def expand (ms : List Macro) : Nat → List Tok → List Tok
  | 0, _ => []
  | _, [] => []
  | fuel + 1, .id n :: rest =>
    match ms.find? (fun m => m.name == n) with
    | some m =>
      let r := macroArgs (rest.drop 1)
      expand ms fuel (paste (subst (m.params.zip r.1) m.body) ++ r.2)
    | none => .id n :: expand ms fuel rest
  | fuel + 1, t :: rest => t :: expand ms fuel rest

/-- The tokens of a header after preprocessing. -/
def preprocess (lines : List String) : List Tok :=
  let d := directives none (lines.map (fun l => lexLine .none (bytes l)))
  expand d.1 20000 d.2

/-! ## Syntax trees -/

/-- Types as written, and literal template arguments. -/
inductive Ty where
  | name (n : Nat)
  | lit (k : Nat)
  /-- `typename n::m` -/
  | member (n m : Nat)
  | app1 (n : Nat) (a : Ty)
  | app2 (n : Nat) (a b : Ty)
  | app3 (n : Nat) (a b c : Ty)
deriving DecidableEq, Repr

inductive UnOp where
  | neg | pos | not
deriving DecidableEq, Repr

inductive BinOp where
  | add | sub | mul | div | mod | shl | eq | ne | lt | le | gt | ge | and | or
deriving DecidableEq, Repr

mutual
inductive Expr where
  | num (n : Nat)
  /-- `{}` as a default argument -/
  | braces
  /-- an identifier; `q` is the qualifier before `::`, or 0 -/
  | var (q x : Nat)
  /-- `e.x` -/
  | mem (e : Expr) (x : Nat)
  /-- `e.f()` -/
  | method (e : Expr) (f : Nat)
  /-- `q::f<ts>(args)`; without `(args)` a variable template -/
  | call (q f : Nat) (ts : List Ty) (args : Args)
  | cast (t : Ty) (e : Expr)
  | un (op : UnOp) (e : Expr)
  | bin (op : BinOp) (a b : Expr)
  | cond (c a b : Expr)
deriving DecidableEq, Repr

inductive Args where
  | nil
  | cons (e : Expr) (rest : Args)
deriving DecidableEq, Repr
end

def Args.ofList : List Expr → Args
  | [] => .nil
  | e :: es => .cons e (ofList es)

/-- Statements, each with what follows it. -/
inductive Stmt where
  | nil
  | ret (e : Expr) (next : Stmt)
  /-- `return {args};` -/
  | retBrace (args : Args) (next : Stmt)
  /-- `return x = e;` -/
  | retAssign (x : Nat) (e : Expr) (next : Stmt)
  | using (x : Nat) (t : Ty) (next : Stmt)
  /-- `auto const x = e;` -/
  | decl (x : Nat) (e : Expr) (next : Stmt)
  | ite (c : Expr) (a b next : Stmt)
  | switch (e : Expr) (cases next : Stmt)
  | case (label : Expr) (next : Stmt)
  /-- `x = e;` -/
  | assign (x : Nat) (e : Expr) (next : Stmt)
  /-- `x op= e;` -/
  | update (x : Nat) (op : BinOp) (e : Expr) (next : Stmt)
  /-- `f();`, a member function of the same object -/
  | callSelf (f : Nat) (next : Stmt)
  /-- `x {args}` before the body of a constructor; `x` is a data member or the class -/
  | init (x : Nat) (args : Args) (next : Stmt)
deriving DecidableEq, Repr

structure Param where
  ty : Ty
  name : Nat
  dflt : Option Expr
deriving DecidableEq, Repr

/-- A function, member function, constructor, conversion function or variable template.  `scope` is
the class, or the namespace `math_utilities`, or 0 for `ieme` itself.  The template parameters begin
with those of the class; a constructor has the name of its class and a conversion function the name
`operator`. -/
structure Func where
  scope : Nat
  name : Nat
  tparams : List Nat
  params : List Param
  isConst : Bool
  ret : Ty
  body : Option Stmt
deriving DecidableEq, Repr

/-- A data member with its default initialiser. -/
structure Field where
  ty : Ty
  name : Nat
  init : Args
deriving DecidableEq, Repr

/-- A class: its template parameters, its member types, its static constants and its data
members. -/
structure Cls where
  name : Nat
  tparams : List Nat
  aliases : List (Nat × Ty)
  consts : List (Nat × Nat)
  fields : List Field
deriving DecidableEq, Repr

/-- What a header defines: functions, classes, and enumerations with their enumerators.  `skipped` is the number of definitions with a body that are not of the
forms read here. -/
structure Program where
  funcs : List Func
  classes : List Cls
  enums : List (Nat × List Nat)
  skipped : Nat
deriving DecidableEq, Repr

/-! ## The grammar -/

abbrev P := StateT (List Tok) Option

def next : P Tok := fun ts => match ts with
  | [] => none
  | t :: rest => some (t, rest)

def peek : P (Option Tok) := fun ts => some (ts.head?, ts)

def tok (t : Tok) : P Unit := fun ts => match ts with
  | [] => none
  | u :: rest => if u = t then some ((), rest) else none

def sym (s : Nat) : P Unit := tok (.sym s)

def kw (n : Nat) : P Unit := tok (.id n)

def at? (t : Tok) : P Bool := fun ts => some (ts.head? == some t, ts)

/-- Reads the token if it is there. -/
def opt (t : Tok) : P Bool := fun ts => match ts with
  | [] => some (false, [])
  | u :: rest => if u = t then some (true, rest) else some (false, ts)

def ident : P Nat := fun ts => match ts with
  | .id n :: rest => some (n, rest)
  | _ => none

/-- `a::b` as one name. -/
def joinName (a b : Nat) : Nat := (a * 256 + 58) * 256 + 58 |> go b b 40
where
  go (b m : Nat) : Nat → Nat → Nat
    | 0, acc => acc + b
    | fuel + 1, acc => if m = 0 then acc + b else go b (m / 256) fuel (acc * 256)

/-- Reads and forgets `const`, `constexpr`, `static`, `typename`, `inline`. -/
def qualifiers : Nat → P Unit
  | 0 => pure ()
  | fuel + 1 => do
    match ← peek with
    | some (.id n) =>
      if n == N.«const» || n == N.«constexpr» || n == N.«static» || n == N.«typename» then do
        let _ ← next
        qualifiers fuel
      else pure ()
    | _ => pure ()

/-- A possibly qualified name of a type; `ieme::` is dropped, `std::` made part of the name. -/
def qualName : P Ty := do
  let a ← ident
  if ← opt (.sym S.scope) then
    let b ← ident
    if a == N.«ieme» then pure (.name b)
    else if a == N.«std» then pure (.name (joinName a b))
    else pure (.member a b)
  else pure (.name a)

/-- A template applied to arguments. -/
def applied (t : Ty) (args : List Ty) : P Ty :=
  match t, args with
  | .name n, [a] => pure (.app1 n a)
  | .name n, [a, b] => pure (.app2 n a b)
  | .name n, [a, b, c] => pure (.app3 n a b c)
  | _, _ => failure

mutual
def pTy : Nat → P Ty
  | 0 => failure
  | fuel + 1 => do
    qualifiers 5
    match ← peek with
    | some (.num k) => do
      let _ ← next
      pure (.lit k)
    | _ => do
      let n ← qualName
      let t ← (do
        if ← opt (.sym S.lt) then
          let as ← pTyArgs fuel
          applied n as
        else pure n)
      qualifiers 2
      let _ ← opt (.sym S.amp)
      pure t

/-- Template arguments up to and including `>`. -/
def pTyArgs : Nat → P (List Ty)
  | 0 => failure
  | fuel + 1 => do
    let t ← pTy fuel
    if ← opt (.sym S.comma) then
      let ts ← pTyArgs fuel
      pure (t :: ts)
    else do
      sym S.gt
      pure [t]
end

/-- The templates that occur in expressions; after any other name `<` is the operator. -/
def templateNames : List Nat :=
  [N.«_0», N.«_1», N.«_2», N.«number», N.«raw_fraction», N.«fraction», N.«mixed_number»,
    N.«is_same_v»]

/-- Binary operators with their precedences. -/
def binOp (s : Nat) : Option (BinOp × Nat) :=
  if s == S.star then some (.mul, 7)
  else if s == S.slash then some (.div, 7)
  else if s == S.percent then some (.mod, 7)
  else if s == S.plus then some (.add, 6)
  else if s == S.minus then some (.sub, 6)
  else if s == S.shl then some (.shl, 5)
  else if s == S.lt then some (.lt, 4)
  else if s == S.le then some (.le, 4)
  else if s == S.gt then some (.gt, 4)
  else if s == S.ge then some (.ge, 4)
  else if s == S.eqeq then some (.eq, 3)
  else if s == S.ne then some (.ne, 3)
  else if s == S.and then some (.and, 2)
  else if s == S.or then some (.or, 1)
  else none

def unOp (s : Nat) : Option UnOp :=
  if s == S.minus then some .neg
  else if s == S.plus then some .pos
  else if s == S.not then some .not
  else none

mutual
/-- A conditional expression. -/
def pExpr : Nat → P Expr
  | 0 => failure
  | fuel + 1 => do
    let c ← pBin fuel 1
    if ← opt (.sym S.quest) then
      let a ← pExpr fuel
      sym S.colon
      let b ← pExpr fuel
      pure (.cond c a b)
    else pure c

/-- Binary operators of precedence at least `prec`. -/
def pBin : Nat → Nat → P Expr
  | 0, _ => failure
  | fuel + 1, prec => do
    let a ← pUnary fuel
    pBinRest fuel prec a

def pBinRest : Nat → Nat → Expr → P Expr
  | 0, _, _ => failure
  | fuel + 1, prec, a => do
    match ← peek with
    | some (.sym s) =>
      match binOp s with
      | some (op, p) =>
        if prec ≤ p then do
          let _ ← next
          let b ← pBin fuel (p + 1)
          pBinRest fuel prec (.bin op a b)
        else pure a
      | none => pure a
    | _ => pure a

def pUnary : Nat → P Expr
  | 0 => failure
  | fuel + 1 => do
    match ← peek with
    | some (.sym s) =>
      match unOp s with
      | some op => do
        let _ ← next
        let e ← pUnary fuel
        pure (.un op e)
      | none => do
        let e ← pPrimary fuel
        pPostfix fuel e
    | _ => do
      let e ← pPrimary fuel
      pPostfix fuel e

def pPostfix : Nat → Expr → P Expr
  | 0, _ => failure
  | fuel + 1, e => do
    if ← opt (.sym S.dot) then
      let x ← ident
      if ← opt (.sym S.lpar) then
        sym S.rpar
        pPostfix fuel (.method e x)
      else pPostfix fuel (.mem e x)
    else pure e

def pPrimary : Nat → P Expr
  | 0 => failure
  | fuel + 1 => do
    match ← next with
    | .num n => pure (.num n)
    | .sym s =>
      if s == S.lpar then do
        let e ← pExpr fuel
        sym S.rpar
        pure e
      else failure
    | .id n =>
      if n == N.«static_cast» then do
        sym S.lt
        let t ← pTy fuel
        sym S.gt
        sym S.lpar
        let e ← pExpr fuel
        sym S.rpar
        pure (.cast t e)
      else do
        let qf ← (do
          if ← opt (.sym S.scope) then
            let f ← ident
            if n == N.«ieme» then pure (0, f) else pure (n, f)
          else pure (0, n))
        pCall fuel qf.1 qf.2
    | .lit => failure

/-- What follows a name: template arguments and arguments. -/
def pCall : Nat → Nat → Nat → P Expr
  | 0, _, _ => failure
  | fuel + 1, q, f => do
    let ts ← (do
      if templateNames.contains f then
        if ← opt (.sym S.lt) then pTyArgs fuel else pure []
      else pure [])
    if ← opt (.sym S.lpar) then
      let as ← pArgs fuel S.rpar
      pure (.call q f ts (.ofList as))
    else
      match ts with
      | [] => pure (.var q f)
      | _ => pure (.call q f ts .nil)

/-- Expressions between commas up to and including `close`. -/
def pArgs : Nat → Nat → P (List Expr)
  | 0, _ => failure
  | fuel + 1, close => do
    if ← opt (.sym close) then pure []
    else
      let e ← pExpr fuel
      if ← opt (.sym S.comma) then
        let es ← pArgs fuel close
        pure (e :: es)
      else do
        sym close
        pure [e]
end

/-- `+=` and the like. -/
def updateOp (s : Nat) : Option BinOp :=
  if s == S.plusEq then some .add
  else if s == S.minusEq then some .sub
  else if s == S.starEq then some .mul
  else if s == S.slashEq then some .div
  else if s == S.percentEq then some .mod
  else none

mutual
/-- Statements up to the closing brace, which is left. -/
def pStmts : Nat → P Stmt
  | 0 => failure
  | fuel + 1 => do
    if ← at? (.sym S.rbr) then pure .nil
    else
      let s ← pStmt fuel
      let rest ← pStmts fuel
      pure (s rest)

/-- A block or a single statement. -/
def pBlock : Nat → P Stmt
  | 0 => failure
  | fuel + 1 => do
    if ← opt (.sym S.lbr) then
      let s ← pStmts fuel
      sym S.rbr
      pure s
    else
      let s ← pStmt fuel
      pure (s .nil)

def pStmt : Nat → P (Stmt → Stmt)
  | 0 => failure
  | fuel + 1 => do
    let n ← ident
    if n == N.«return» then
      if ← opt (.sym S.lbr) then
        let as ← pArgs fuel S.rbr
        sym S.semi
        pure (.retBrace (.ofList as))
      else
        let e ← pExpr fuel
        if ← opt (.sym S.assign) then
          let v ← pExpr fuel
          sym S.semi
          match e with
          | .var 0 x => pure (.retAssign x v)
          | _ => failure
        else do
          sym S.semi
          pure (.ret e)
    else if n == N.«using» then
      let x ← ident
      sym S.assign
      let t ← pTy fuel
      sym S.semi
      pure (.using x t)
    else if n == N.«auto» then
      let _ ← opt (.id N.«const»)
      let x ← ident
      sym S.assign
      let e ← pExpr fuel
      sym S.semi
      pure (.decl x e)
    else if n == N.«if» then
      let _ ← opt (.id N.«constexpr»)
      sym S.lpar
      let c ← pExpr fuel
      sym S.rpar
      let a ← pBlock fuel
      let b ← (do if ← opt (.id N.«else») then pBlock fuel else pure .nil)
      pure (.ite c a b)
    else if n == N.«switch» then
      sym S.lpar
      let e ← pExpr fuel
      sym S.rpar
      sym S.lbr
      let cs ← pStmts fuel
      sym S.rbr
      pure (.switch e cs)
    else if n == N.«case» then
      let e ← pExpr fuel
      sym S.colon
      pure (.case e)
    else
      match ← next with
      | .sym s =>
        if s == S.assign then do
          let e ← pExpr fuel
          sym S.semi
          pure (.assign n e)
        else
          if s == S.lpar then do
            sym S.rpar
            sym S.semi
            pure (.callSelf n)
          else
            match updateOp s with
            | some op => do
              let e ← pExpr fuel
              sym S.semi
              pure (.update n op e)
            | none => failure
      | _ => failure
end

/-- Skips to the end of a default template argument: the comma or `>` that is not nested. -/
def skipDefault : Nat → Nat → P Unit
  | 0, _ => failure
  | fuel + 1, depth => do
    match ← peek with
    | some (.sym s) =>
      if depth == 0 && (s == S.comma || s == S.gt) then pure ()
      else do
        let _ ← next
        if s == S.lt then skipDefault fuel (depth + 1)
        else if s == S.gt then skipDefault fuel (depth - 1)
        else skipDefault fuel depth
    | some _ => do
      let _ ← next
      skipDefault fuel depth
    | none => failure

/-- Template parameters up to and including `>`; one without a name is dropped. -/
def pTParams : Nat → P (List Nat)
  | 0 => failure
  | fuel + 1 => do
    let kind ← qualName'
    let x ← (do
      match ← peek with
      | some (.id n) => do
        let _ ← next
        pure [n]
      | _ => pure [])
    let _ := kind
    if ← opt (.sym S.assign) then skipDefault 60 0
    if ← opt (.sym S.comma) then
      let xs ← pTParams fuel
      pure (x ++ xs)
    else do
      sym S.gt
      pure x
where
  /-- `typename`, `auto`, `bool`, `reduce_mode` or `std::intmax_t`. -/
  qualName' : P Nat := do
    let a ← ident
    if ← opt (.sym S.scope) then ident else pure a

/-- Any number of `template <...>`. -/
def pTemplates : Nat → P (List Nat)
  | 0 => pure []
  | fuel + 1 => do
    if ← opt (.id N.«template») then
      sym S.lt
      let a ← pTParams 10
      let b ← pTemplates fuel
      pure (a ++ b)
    else pure []

/-- Parameters up to and including the closing parenthesis. -/
def pParams : Nat → P (List Param)
  | 0 => failure
  | fuel + 1 => do
    if ← opt (.sym S.rpar) then pure []
    else
      let t ← pTy 10
      let x ← ident
      let d ← (do
        if ← opt (.sym S.assign) then
          if ← opt (.sym S.lbr) then do
            sym S.rbr
            pure (some .braces)
          else
            let e ← pExpr 20
            pure (some e)
        else pure none)
      if ← opt (.sym S.comma) then
        let ps ← pParams fuel
        pure (⟨t, x, d⟩ :: ps)
      else do
        sym S.rpar
        pure [⟨t, x, d⟩]

/-- The name of the function being declared: its class, or 0, and its name. -/
def pDeclarator : P (Nat × Nat) := do
  let n ← ident
  if n == N.«operator» then
    match ← next with
    | .sym s =>
      if s < 256 then pure (0, n * 256 + s) else pure (0, n * 65536 + s)
    | _ => failure
  else
    if ← opt (.sym S.lt) then
      let _ ← pTyArgs 10
      sym S.scope
      let f ← ident
      pure (n, f)
    else if ← opt (.sym S.scope) then
      let f ← ident
      pure (n, f)
    else pure (0, n)

/-- A function, after its template parameters.  The variable templates of
`/repo/include/ieme/numbers.hpp` are functions without parameters. -/
def pFunc (scope : Nat) (tps : List Nat) : P Func := do
  let ret ← pTy 10
  let (q, f) ← pDeclarator
  let sc := if q == 0 then scope else q
  if ← opt (.sym S.assign) then
    let e ← pExpr 30
    sym S.semi
    pure ⟨sc, f, tps, [], true, ret, some (.ret e .nil)⟩
  else do
    sym S.lpar
    let ps ← pParams 10
    let c ← opt (.id N.«const»)
    let _ ← opt (.id N.«noexcept»)
    let ret' ← (do if ← opt (.sym S.arrow) then pTy 10 else pure ret)
    if ← opt (.sym S.semi) then
      pure ⟨sc, f, tps, ps, c, ret', none⟩
    else do
      sym S.lbr
      let b ← pStmts 60
      sym S.rbr
      pure ⟨sc, f, tps, ps, c, ret', some b⟩

/-- `x {args}, y {args} {`: the initialisers before the body of a constructor. -/
def pInits : Nat → P (List (Nat × Header.Args))
  | 0 => failure
  | fuel + 1 => do
    let x ← ident
    sym S.lbr
    let as ← pArgs 30 S.rbr
    if ← opt (.sym S.comma) then
      let is ← pInits fuel
      pure ((x, .ofList as) :: is)
    else do
      sym S.lbr
      pure [(x, .ofList as)]

/-- A constructor from its parameters on. -/
def pCtorRest (cls : Nat) (tps : List Nat) : P Func := do
  sym S.lpar
  let ps ← pParams 10
  let _ ← opt (.id N.«noexcept»)
  if ← opt (.sym S.semi) then
    pure ⟨cls, cls, tps, ps, false, .name N.«void», none⟩
  else do
    sym S.colon
    let is ← pInits 5
    let b ← pStmts 60
    sym S.rbr
    pure ⟨cls, cls, tps, ps, false, .name N.«void»,
      some (is.foldr (fun i b => .init i.1 i.2 b) b)⟩

/-- A conversion function from `operator` on. -/
def pConversion (cls : Nat) (tps : List Nat) : P Func := do
  kw N.«operator»
  let t ← pTy 10
  sym S.lpar
  sym S.rpar
  kw N.«const»
  kw N.«noexcept»
  if ← opt (.sym S.semi) then
    pure ⟨cls, N.«operator», tps, [], true, t, none⟩
  else do
    sym S.lbr
    let b ← pStmts 60
    sym S.rbr
    pure ⟨cls, N.«operator», tps, [], true, t, some b⟩

/-- A constructor or conversion function declared in its class. -/
def pSpecial (cls : Nat) (tps : List Nat) : P Func := do
  let _ ← opt (.id N.«explicit»)
  qualifiers 5
  if ← at? (.id N.«operator») then pConversion cls tps
  else do
    kw cls
    pCtorRest cls tps

/-- A constructor or conversion function defined outside its class. -/
def pSpecialOut (tps : List Nat) : P Func := do
  qualifiers 5
  let c ← ident
  sym S.lt
  let _ ← pTyArgs 10
  sym S.scope
  if ← at? (.id N.«operator») then pConversion c tps
  else do
    kw c
    pCtorRest c tps

/-- Skips a declaration or definition: to the semicolon that is not nested, or past a brace group.
Says whether there was a body. -/
def skipItem : Nat → Nat → P Bool
  | 0, _ => failure
  | fuel + 1, depth => do
    match ← next with
    | .sym s =>
      if s == S.lbr then skipItem fuel (depth + 1)
      else if s == S.rbr then
        if depth == 0 then failure
        else if depth == 1 then do
          match ← peek with
          | some (.sym s) =>
            if s == S.comma || s == S.lbr then skipItem fuel 0
            else pure true
          | _ => pure true
        else skipItem fuel (depth - 1)
      else if s == S.semi && depth == 0 then pure false
      else skipItem fuel depth
    | _ => skipItem fuel depth

/-- One item read: a function, a member type, a constant, data members, or nothing of interest. -/
inductive Item where
  | func (f : Func)
  | alias (x : Nat) (t : Ty)
  | const (x y : Nat)
  | fields (fs : List Field)
  | none
  | skipped
deriving Repr

/-- `static constexpr T x = Y;` in a class. -/
def pConst : P Item := do
  kw N.«static»
  kw N.«constexpr»
  let _ ← ident
  let x ← ident
  sym S.assign
  let y ← ident
  sym S.semi
  pure (.const x y)

/-- `x = {args}, y = {args};`. -/
def pFields (t : Ty) : Nat → P (List Field)
  | 0 => failure
  | fuel + 1 => do
    let x ← ident
    sym S.assign
    sym S.lbr
    let as ← pArgs 20 S.rbr
    if ← opt (.sym S.comma) then
      let fs ← pFields t fuel
      pure (⟨t, x, .ofList as⟩ :: fs)
    else do
      sym S.semi
      pure [⟨t, x, .ofList as⟩]

/-- A member of a class. -/
def pMember (cls : Nat) (ctps : List Nat) : P Item := do
  if ← opt (.id N.«public») then
    sym S.colon
    pure .none
  else if ← opt (.id N.«private») then
    sym S.colon
    pure .none
  else if ← opt (.id N.«using») then
    let x ← ident
    sym S.assign
    let t ← pTy 10
    sym S.semi
    pure (.alias x t)
  else
    pConst <|>
    (do let tps ← pTemplates 3
        let f ← pSpecial cls (ctps ++ tps) <|> pFunc cls (ctps ++ tps)
        pure (.func f)) <|>
    (do let t ← pTy 10
        let fs ← pFields t 5
        pure (.fields fs)) <|>
    (do let b ← skipItem 200 0
        pure (if b then .skipped else .none))

/-- The members up to and including the closing brace. -/
def pMembers (cls : Nat) (ctps : List Nat) : Nat → P (List Item)
  | 0 => failure
  | fuel + 1 => do
    if ← opt (.sym S.rbr) then pure []
    else
      let i ← pMember cls ctps
      let is ← pMembers cls ctps fuel
      pure (i :: is)

def Item.func? : Item → Option Func
  | .func f => some f
  | _ => Option.none

/-- A class definition or a mere declaration, after its template parameters. -/
def pClass (tps : List Nat) : P Program := do
  let k ← ident
  if k == N.«class» || k == N.«struct» then
    let n ← ident
    if ← opt (.sym S.semi) then pure ⟨[], [], [], 0⟩
    else
      let _ ← opt (.id N.«final»)
      sym S.lbr
      let is ← pMembers n tps 100
      let _ ← opt (.sym S.semi)
      pure ⟨is.filterMap Item.func?,
        [⟨n, tps, is.filterMap (fun | .alias x t => some (x, t) | _ => Option.none),
          is.filterMap (fun | .const x y => some (x, y) | _ => Option.none),
          is.flatMap (fun | .fields fs => fs | _ => [])⟩], [],
        (is.filter (fun | .skipped => true | _ => false)).length⟩
  else failure

def Program.append (a b : Program) : Program :=
  ⟨a.funcs ++ b.funcs, a.classes ++ b.classes, a.enums ++ b.enums, a.skipped + b.skipped⟩

/-- The namespaces that are not counted as scopes: `ieme` and `ops`. -/
def namespaceScope (n : Nat) : Nat := if n == N.«ieme» || n == N.«ops» then 0 else n

/-- Enumerators up to and including the closing brace. -/
def pEnumerators : Nat → P (List Nat)
  | 0 => failure
  | fuel + 1 => do
    let x ← ident
    if ← opt (.sym S.comma) then
      let xs ← pEnumerators fuel
      pure (x :: xs)
    else do
      sym S.rbr
      pure [x]

/-- Items up to the closing brace of the namespace or the end. -/
def pItems : Nat → Nat → P Program
  | 0, _ => failure
  | fuel + 1, scope => do
    match ← peek with
    | none => pure ⟨[], [], [], 0⟩
    | some t =>
      if t = .sym S.rbr then pure ⟨[], [], [], 0⟩
      else
        let p ← (do
          if ← opt (.sym S.semi) then pure (⟨[], [], [], 0⟩ : Program)
          else if ← opt (.id N.«namespace») then
            let n ← ident
            sym S.lbr
            let p ← pItems fuel (namespaceScope n)
            sym S.rbr
            pure p
          else if ← opt (.id N.«enum») then
            kw N.«class»
            let n ← ident
            sym S.lbr
            let xs ← pEnumerators 10
            sym S.semi
            pure ⟨[], [], [(n, xs)], 0⟩
          else if ← opt (.id N.«using») then
            let _ ← skipItem 100 0
            pure ⟨[], [], [], 0⟩
          else
            (do let tps ← pTemplates 3
                pClass tps <|> (do
                  let f ← pSpecialOut tps <|> pFunc scope tps
                  pure ⟨[f], [], [], 0⟩)) <|>
            (do let b ← skipItem 500 0
                pure ⟨[], [], [], if b then 1 else 0⟩))
        let rest ← pItems fuel scope
        pure (p.append rest)

/-- The default arguments of the declaration of `f`, if it has one. -/
def declared (fs : List Func) (f : Func) : List Param :=
  match fs.find? (fun g => g.body.isNone && g.scope == f.scope && g.name == f.name &&
      g.params.map Param.ty == f.params.map Param.ty) with
  | some g => g.params
  | none => f.params

/-- A definition with the default arguments of its declaration. -/
def withDefaults (fs : List Func) (f : Func) : Func :=
  ⟨f.scope, f.name, f.tparams,
    (f.params.zip (declared fs f)).map (fun q => ⟨q.1.ty, q.1.name, q.2.dflt⟩),
    f.isConst, f.ret, f.body⟩

/-- Gives the definitions the default arguments of their declarations and drops the latter. -/
def link (p : Program) : Program :=
  ⟨(p.funcs.filter (fun f => f.body.isSome)).map (withDefaults p.funcs), p.classes,
    p.enums, p.skipped⟩

/-- Reads a header. -/
def parse (lines : List String) : Option Program :=
  match (pItems 600 0).run (preprocess lines) with
  | some (p, []) => some (link p)
  | _ => none

end Ieme.Header
