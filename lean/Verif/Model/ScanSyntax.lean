import Verif.Model.ScanNames
import Verif.Model.HeaderEval

/-!
# The text of the parser as a program: tokens and grammar

Nothing here models a function of `/repo`; it models the part of the C++ grammar in which
`/repo/include/ieme/parse_utilities.hpp` and `/repo/include/ieme/floating_point.hpp` are written:
declarations, assignments, `if` with an initialiser, the two kinds of `for`, `switch` with
fall-through, lambda expressions, local structures and constants, and `std::memcpy` from one variable
to another.  `Verif/Model/ScanEval.lean` evaluates it.

Simplifications.  `const`, `constexpr`, `noexcept`, `inline`, `&` after a type, attributes,
`static_assert`, the captures of lambda expressions, and the qualifiers `ieme::` and
`parse_utilities::` are read and forgotten, as are declarations of functions without a body.
-/

namespace Ieme.Script

open Header

/-! ## Tokens -/

inductive Tok where
  | id (n : Nat)
  | num (n : Nat)
  /-- a literal with the suffix `U` -/
  | unum (n : Nat)
  | sym (n : Nat)
  | chr (c : Nat)
  | str (s : List Nat)
deriving DecidableEq, Repr

/-- What has been read of the token in progress. -/
inductive LexState where
  | none
  | ident (n : Nat)
  | number (n : Nat)
  | symbol (b : Nat)
  /-- inside a literal closed by `q`, its characters in reverse -/
  | quoted (q : Nat) (s : List Nat)
  /-- after a backslash inside a literal closed by `q` -/
  | escaped (q : Nat) (s : List Nat)
  | comment

def LexState.start (b : Nat) : LexState :=
  if b == 32 then .none
  else if isIdStart b then .ident b
  else if isDigit b then .number (b - 48)
  else if b == 34 || b == 39 then .quoted b []
  else .symbol b

/-- `->` -/
abbrev arrow : Nat := 45 * 256 + 62

/-- The symbols of two characters. -/
def twoChar : List Nat :=
  [S.scope, S.and, S.or, S.eqeq, S.ne, S.le, S.ge, S.plusEq, S.starEq, S.incr, S.shl,
    arrow]

/-- A character literal (closed by `'`) or a string literal. -/
def literal (q : Nat) (s : List Nat) : List Tok :=
  if q == 39 then
    match s with
    | [c] => [.chr c]
    | _ => []
  else [.str s.reverse]

/-- The tokens of a line. -/
def lexLine : LexState → List Nat → List Tok
  | .none, [] => []
  | .ident n, [] => [.id n]
  | .number n, [] => [.num n]
  | .symbol b, [] => [.sym b]
  | .quoted _ _, [] => []
  | .escaped _ _, [] => []
  | .comment, [] => []
  | .none, b :: rest => lexLine (.start b) rest
  | .ident n, b :: rest =>
    if isIdStart b || isDigit b then lexLine (.ident (n * 256 + b)) rest
    else .id n :: lexLine (.start b) rest
  | .number n, b :: rest =>
    if isDigit b then lexLine (.number (n * 10 + (b - 48))) rest
    else if b == 85 then .unum n :: lexLine .none rest
    else .num n :: lexLine (.start b) rest
  | .symbol c, b :: rest =>
    if c == 47 && b == 47 then lexLine .comment rest
    else if twoChar.contains (c * 256 + b) then .sym (c * 256 + b) :: lexLine .none rest
    else .sym c :: lexLine (.start b) rest
  | .quoted q s, b :: rest =>
    if b == 92 then lexLine (.escaped q s) rest
    else if b == q then literal q s ++ lexLine .none rest
    else lexLine (.quoted q (b :: s)) rest
  | .escaped q s, b :: rest => lexLine (.quoted q (b :: s)) rest
  | .comment, _ :: rest => lexLine .comment rest

/-- The tokens of some lines; directives are dropped. -/
def lex (lines : List String) : List Tok :=
  (lines.map fun l =>
    let ts := lexLine .none (bytes l)
    if ts.head? == some (.sym S.hash) then [] else ts).flatten

/-! ## Syntax trees -/

structure Param where
  ty : Ty
  name : Nat
deriving DecidableEq, Repr

mutual
/-- Expressions. -/
inductive Exp where
  | num (n : Nat)
  | unum (n : Nat)
  | chr (c : Nat)
  | str (s : List Nat)
  | var (x : Nat)
  /-- `e.x` -/
  | fld (e : Exp) (x : Nat)
  /-- `e.f(args)` -/
  | meth (e : Exp) (f : Nat) (args : Exps)
  /-- `f<ts>(args)`; without `(args)` a variable template -/
  | call (f : Nat) (ts : List Ty) (args : Exps)
  | cast (t : Ty) (e : Exp)
  /-- `*e` -/
  | deref (e : Exp)
  | un (op : UnOp) (e : Exp)
  | bin (op : BinOp) (a b : Exp)
  | cond (c a b : Exp)
  /-- `[&]() { body }` -/
  | lam (body : Stm)
  /-- `[&]() { body }()` -/
  | now (body : Stm)
  /-- `[&](ps) { body }`, or `[&](ps) -> t { body }` -/
  | lamP (ps : List Param) (t : Option Ty) (body : Stm)
  /-- `[&]() -> t { body }()` -/
  | nowR (t : Ty) (body : Stm)
  /-- `a >> b` -/
  | shr (a b : Exp)
  /-- `a & b` -/
  | band (a b : Exp)
  | throw

inductive Exps where
  | nil
  | cons (e : Exp) (rest : Exps)

/-- Statements, each with what follows it. -/
inductive Stm where
  | nil
  | ret (e : Exp) (next : Stm)
  /-- `auto x = e;` -/
  | decl (x : Nat) (e : Exp) (next : Stm)
  /-- `auto [x, y] = e;` -/
  | decl2 (x y : Nat) (e : Exp) (next : Stm)
  /-- `auto [x, y, z] = e;` -/
  | decl3 (x y z : Nat) (e : Exp) (next : Stm)
  /-- `t x;` -/
  | obj (t x : Nat) (next : Stm)
  /-- `t x {};` -/
  | zero (t x : Nat) (next : Stm)
  /-- `static constexpr auto x = e;` -/
  | constant (x : Nat) (e : Exp) (next : Stm)
  /-- `struct t { fs };`, all of the members with the initialiser `{}` -/
  | strct (t : Nat) (fs : List Param) (next : Stm)
  /-- `return {args};` -/
  | retBrace (args : Exps) (next : Stm)
  /-- `std::memcpy(&x, &y, sizeof(t));` -/
  | copy (x y t : Nat) (next : Stm)
  /-- `x = e;` -/
  | assign (x : Nat) (e : Exp) (next : Stm)
  /-- `x.f = e;` -/
  | set (x f : Nat) (e : Exp) (next : Stm)
  /-- `x += e;` -/
  | update (x : Nat) (op : BinOp) (e : Exp) (next : Stm)
  /-- `++x;` -/
  | incr (x : Nat) (next : Stm)
  /-- `x.f(args);` -/
  | act (x f : Nat) (args : Exps) (next : Stm)
  | ite (c : Exp) (a b : Stm) (next : Stm)
  /-- `if (auto x = e; c) a` -/
  | iteInit (x : Nat) (e c : Exp) (a : Stm) (next : Stm)
  /-- `for (auto x : e) body` -/
  | each (x : Nat) (e : Exp) (body : Stm) (next : Stm)
  /-- `for (auto x = e; c; ++x) body` -/
  | loop (x : Nat) (e c : Exp) (body : Stm) (next : Stm)
  | switch (e : Exp) (cases : Stm) (next : Stm)
  | case (label : Exp) (next : Stm)
  | dflt (next : Stm)
  | brk (next : Stm)
  | cont (next : Stm)
end

deriving instance DecidableEq for Exp, Exps, Stm

def Exps.ofList : List Exp → Exps
  | [] => .nil
  | e :: es => .cons e (ofList es)

/-- A function template. -/
structure Func where
  name : Nat
  tparams : List Nat
  params : List Param
  ret : Ty
  body : Stm
deriving DecidableEq

/-- A data member and its initialiser, which is `.nil` when there is none. -/
structure Field where
  ty : Ty
  name : Nat
  init : Exps
deriving DecidableEq

/-- Functions, structures, enumerations with their enumerators, names that stand for an enumerator,
and names of types. -/
structure Program where
  funcs : List Func
  structs : List (Nat × List Field)
  enums : List (Nat × List Nat)
  values : List (Nat × Nat × Nat)
  types : List (Nat × TVal)
deriving DecidableEq

def Program.append (a b : Program) : Program :=
  ⟨a.funcs ++ b.funcs, a.structs ++ b.structs, a.enums ++ b.enums, a.values ++ b.values,
    a.types ++ b.types⟩

/-! ## The grammar -/

abbrev P := StateT (List Tok) Option

def next : P Tok := fun ts => match ts with
  | [] => none
  | t :: rest => some (t, rest)

def peek : P (Option Tok) := fun ts => some (ts.head?, ts)

def tok (t : Tok) : P Unit := fun ts => match ts with
  | [] => none
  | u :: rest => if u = t then some ((), rest) else none

def sym (s : Nat) : P Unit := tok (.sym s)

def kw (n : Nat) : P Unit := tok (.id n)

def at? (t : Tok) : P Bool := fun ts => some (ts.head? == some t, ts)

/-- Reads the token if it is there. -/
def opt (t : Tok) : P Bool := fun ts => match ts with
  | [] => some (false, [])
  | u :: rest => if u = t then some (true, rest) else some (false, ts)

def ident : P Nat := fun ts => match ts with
  | .id n :: rest => some (n, rest)
  | _ => none

/-- A name with its qualifiers, apart from `ieme::` and `parse_utilities::`. -/
def name : Nat → P Nat
  | 0 => failure
  | fuel + 1 => do
    let a ← ident
    if ← opt (.sym S.scope) then
      let b ← name fuel
      if a == N.«ieme» || a == N.«parse_utilities» then pure b else pure (joinName a b)
    else pure a

/-- Reads and forgets `const`, `constexpr`, `*` and `&`. -/
def qualifiers : Nat → P Unit
  | 0 => pure ()
  | fuel + 1 => do
    match ← peek with
    | some (.id n) =>
      if n == N.«const» || n == N.«constexpr» then do
        let _ ← next
        qualifiers fuel
      else pure ()
    | some (.sym s) =>
      if s == S.amp || s == S.star then do
        let _ ← next
        qualifiers fuel
      else pure ()
    | _ => pure ()

mutual
def pTy : Nat → P Ty
  | 0 => failure
  | fuel + 1 => do
    qualifiers 5
    if let some (.num k) ← peek then
      let _ ← next
      return .lit k
    let n ← name 3
    let n ← (do
      if n == N.«long» then
        let m ← ident
        pure (joinName n m)
      else pure n)
    let t ← (do
      if ← opt (.sym S.lt) then
        match ← pTyArgs fuel with
        | [a] => pure (.app1 n a)
        | [a, b] => pure (.app2 n a b)
        | _ => failure
      else pure (Ty.name n))
    qualifiers 5
    pure t

/-- Template arguments up to and including `>`. -/
def pTyArgs : Nat → P (List Ty)
  | 0 => failure
  | fuel + 1 => do
    let t ← pTy fuel
    if ← opt (.sym S.comma) then
      let ts ← pTyArgs fuel
      pure (t :: ts)
    else do
      sym S.gt
      pure [t]
end

/-- The templates that occur in expressions; after any other name `<` is the operator. -/
def templateNames : List Nat :=
  [N.«_0», N.«_1», N.«_2», N.«_10», N.«fraction», N.«pow», N.«limits»,
    N.«floating_point_string_to_fraction», N.«pow2», N.«number», N.«floating_point_to_fraction»,
    N.«fraction_to_floating_point»]

/-- Parameters up to and including `)`. -/
def pParams : Nat → P (List Param)
  | 0 => failure
  | fuel + 1 => do
    if ← opt (.sym S.rpar) then pure []
    else do
      let t ← pTy 5
      let x ← ident
      if ← opt (.sym S.comma) then
        let ps ← pParams fuel
        pure (⟨t, x⟩ :: ps)
      else do
        sym S.rpar
        pure [⟨t, x⟩]

/-- `t x = {};` up to and including `}`. -/
def pMembers : Nat → P (List Param)
  | 0 => failure
  | fuel + 1 => do
    if ← opt (.sym S.rbr) then pure []
    else do
      let t ← pTy 5
      let x ← ident
      sym S.assign
      sym S.lbr
      sym S.rbr
      sym S.semi
      let ps ← pMembers fuel
      pure (⟨t, x⟩ :: ps)

/-- Reads up to and including `;`. -/
def skip : Nat → P Unit
  | 0 => failure
  | fuel + 1 => do
    if ← opt (.sym S.semi) then pure ()
    else do
      let _ ← next
      skip fuel

/-- `static_cast<void*>(&x)` -/
def pAddress : P Nat := do
  kw N.«static_cast»
  sym S.lt
  kw N.«void»
  qualifiers 2
  sym S.gt
  sym S.lpar
  sym S.amp
  let x ← ident
  sym S.rpar
  pure x

/-- Are these the next tokens? -/
def at2? (t u : Tok) : P Bool := fun ts => match ts with
  | a :: b :: _ => some (a == t && b == u, ts)
  | _ => some (false, ts)

mutual
/-- A conditional expression. -/
def pExp : Nat → P Exp
  | 0 => failure
  | fuel + 1 => do
    let c ← pBin fuel 1
    if ← opt (.sym S.quest) then
      let a ← pExp fuel
      sym S.colon
      let b ← pExp fuel
      pure (.cond c a b)
    else pure c

/-- Binary operators of precedence at least `prec`. -/
def pBin : Nat → Nat → P Exp
  | 0, _ => failure
  | fuel + 1, prec => do
    let a ← pUnary fuel
    pBinRest fuel prec a

def pBinRest : Nat → Nat → Exp → P Exp
  | 0, _, _ => failure
  | fuel + 1, prec, a => do
    if ← at2? (.sym S.gt) (.sym S.gt) then
      if prec ≤ 5 then do
        let _ ← next
        let _ ← next
        let b ← pBin fuel 6
        pBinRest fuel prec (.shr a b)
      else pure a
    else do
    match ← peek with
    | some (.sym s) =>
      if s == S.amp then
        -- weaker than `==`, stronger than `&&`; to be grouped from right to left
        if prec ≤ 3 then do
          let _ ← next
          let b ← pBin fuel 3
          pBinRest fuel prec (.band a b)
        else pure a
      else
      match binOp s with
      | some (op, p) =>
        if prec ≤ p then do
          let _ ← next
          let b ← pBin fuel (p + 1)
          pBinRest fuel prec (.bin op a b)
        else pure a
      | none => pure a
    | _ => pure a

def pUnary : Nat → P Exp
  | 0 => failure
  | fuel + 1 => do
    match ← peek with
    | some (.sym s) =>
      if s == S.star then do
        let _ ← next
        let e ← pUnary fuel
        pure (.deref e)
      else
        match unOp s with
        | some op => do
          let _ ← next
          let e ← pUnary fuel
          pure (.un op e)
        | none => do
          let e ← pPrimary fuel
          pPostfix fuel e
    | _ => do
      let e ← pPrimary fuel
      pPostfix fuel e

def pPostfix : Nat → Exp → P Exp
  | 0, _ => failure
  | fuel + 1, e => do
    if ← opt (.sym S.dot) then
      let x ← ident
      if ← opt (.sym S.lpar) then
        let as ← pArgs fuel
        pPostfix fuel (.meth e x (.ofList as))
      else pPostfix fuel (.fld e x)
    else pure e

def pPrimary : Nat → P Exp
  | 0 => failure
  | fuel + 1 => do
    match ← peek with
    | some (.num n) => do
      let _ ← next
      pure (.num n)
    | some (.unum n) => do
      let _ ← next
      pure (.unum n)
    | some (.chr c) => do
      let _ ← next
      pure (.chr c)
    | some (.str s) => do
      let _ ← next
      pure (.str s)
    | some (.sym s) =>
      if s == S.lpar then do
        let _ ← next
        let e ← pExp fuel
        sym S.rpar
        pure e
      else if s == S.lsq then do
        let _ ← next
        let _ ← opt (.sym S.amp)
        sym S.rsq
        let ps ← (do if ← opt (.sym S.lpar) then pParams 5 else pure [])
        let t ← (do
          if ← opt (.sym arrow) then
            let t ← pTy fuel
            pure (some t)
          else pure none)
        sym S.lbr
        let b ← pStms fuel
        sym S.rbr
        if ← opt (.sym S.lpar) then
          sym S.rpar
          match ps, t with
          | [], none => pure (.now b)
          | [], some t => pure (.nowR t b)
          | _, _ => failure
        else
          match ps, t with
          | [], none => pure (.lam b)
          | _, _ => pure (.lamP ps t b)
      else failure
    | some (.id n) =>
      if n == N.«static_cast» then do
        let _ ← next
        sym S.lt
        let t ← pTy fuel
        sym S.gt
        sym S.lpar
        let e ← pExp fuel
        sym S.rpar
        pure (.cast t e)
      else if n == N.«throw» then do
        let _ ← next
        let _ ← pExp fuel
        pure .throw
      else do
        let f ← name 4
        pCall fuel f
    | none => failure

/-- What follows a name: template arguments, `::` and a further name, and arguments. -/
def pCall : Nat → Nat → P Exp
  | 0, _ => failure
  | fuel + 1, f => do
    let ts ← (do
      if templateNames.contains f then
        if ← opt (.sym S.lt) then pTyArgs fuel else pure []
      else pure [])
    let f ← (do
      if ← opt (.sym S.scope) then
        let g ← ident
        pure (joinName f g)
      else pure f)
    if ← opt (.sym S.lpar) then
      let as ← pArgs fuel
      pure (.call f ts (.ofList as))
    else
      match ts with
      | [] => pure (.var f)
      | _ => pure (.call f ts .nil)

/-- Expressions between commas up to and including `)`. -/
def pArgs : Nat → P (List Exp)
  | 0 => failure
  | fuel + 1 => do
    if ← opt (.sym S.rpar) then pure []
    else
      let e ← pExp fuel
      if ← opt (.sym S.comma) then
        let es ← pArgs fuel
        pure (e :: es)
      else do
        sym S.rpar
        pure [e]

/-- Expressions between commas up to and including `}`. -/
def pBraced : Nat → P (List Exp)
  | 0 => failure
  | fuel + 1 => do
    let e ← pExp fuel
    if ← opt (.sym S.comma) then
      let es ← pBraced fuel
      pure (e :: es)
    else do
      sym S.rbr
      pure [e]

/-- Statements up to the closing brace, which is left. -/
def pStms : Nat → P Stm
  | 0 => failure
  | fuel + 1 => do
    if ← at? (.sym S.rbr) then pure .nil
    else
      let s ← pStm fuel
      let rest ← pStms fuel
      pure (s rest)

/-- A block or a single statement. -/
def pBlock : Nat → P Stm
  | 0 => failure
  | fuel + 1 => do
    if ← opt (.sym S.lbr) then
      let s ← pStms fuel
      sym S.rbr
      pure s
    else
      let s ← pStm fuel
      pure (s .nil)

def pStm : Nat → P (Stm → Stm)
  | 0 => failure
  | fuel + 1 => do
    if ← opt (.sym S.lsq) then
      -- an attribute
      sym S.lsq
      let _ ← ident
      sym S.rsq
      sym S.rsq
      sym S.semi
      pure id
    else if ← opt (.sym S.incr) then
      let x ← ident
      sym S.semi
      pure (.incr x)
    else do
    let n ← ident
    if n == N.«return» then
      if ← opt (.sym S.lbr) then
        let es ← pBraced fuel
        sym S.semi
        pure (.retBrace (.ofList es))
      else do
      let e ← pExp fuel
      sym S.semi
      pure (.ret e)
    else if n == N.«static_assert» then
      skip 20
      pure id
    else if n == N.«static» then
      kw N.«constexpr»
      kw N.«auto»
      let x ← ident
      sym S.assign
      let e ← pExp fuel
      sym S.semi
      pure (.constant x e)
    else if n == N.«struct» then
      let t ← ident
      sym S.lbr
      let ps ← pMembers 10
      sym S.semi
      pure (.strct t ps)
    else if n == N.«std» then
      sym S.scope
      kw N.«memcpy»
      sym S.lpar
      let x ← pAddress
      sym S.comma
      let y ← pAddress
      sym S.comma
      kw N.«sizeof»
      sym S.lpar
      let t ← ident
      sym S.rpar
      sym S.rpar
      sym S.semi
      pure (.copy x y t)
    else if n == N.«break» then
      sym S.semi
      pure .brk
    else if n == N.«continue» then
      sym S.semi
      pure .cont
    else if n == N.«case» then
      let e ← pExp fuel
      sym S.colon
      pure (.case e)
    else if n == N.«default» then
      sym S.colon
      pure .dflt
    else if n == N.«switch» then
      sym S.lpar
      let e ← pExp fuel
      sym S.rpar
      sym S.lbr
      let cs ← pStms fuel
      sym S.rbr
      pure (.switch e cs)
    else if n == N.«if» then
      sym S.lpar
      if ← opt (.id N.«auto») then
        qualifiers 2
        let x ← ident
        sym S.assign
        let e ← pExp fuel
        sym S.semi
        let c ← pExp fuel
        sym S.rpar
        let a ← pBlock fuel
        pure (.iteInit x e c a)
      else do
        let c ← pExp fuel
        sym S.rpar
        let a ← pBlock fuel
        if ← opt (.id N.«else») then
          let b ← pBlock fuel
          pure (.ite c a b)
        else pure (.ite c a .nil)
    else if n == N.«for» then
      sym S.lpar
      kw N.«auto»
      qualifiers 2
      let x ← ident
      if ← opt (.sym S.colon) then
        let e ← pExp fuel
        sym S.rpar
        let b ← pBlock fuel
        pure (.each x e b)
      else do
        sym S.assign
        let e ← pExp fuel
        sym S.semi
        let c ← pExp fuel
        sym S.semi
        sym S.incr
        let y ← ident
        sym S.rpar
        let b ← pBlock fuel
        if y == x then pure (.loop x e c b) else failure
    else if n == N.«auto» then
      qualifiers 2
      if ← opt (.sym S.lsq) then
        let x ← ident
        sym S.comma
        let y ← ident
        if ← opt (.sym S.comma) then
          let z ← ident
          sym S.rsq
          sym S.assign
          let e ← pExp fuel
          sym S.semi
          pure (.decl3 x y z e)
        else do
        sym S.rsq
        sym S.assign
        let e ← pExp fuel
        sym S.semi
        pure (.decl2 x y e)
      else do
        let x ← ident
        sym S.assign
        let e ← pExp fuel
        sym S.semi
        pure (.decl x e)
    else pNamed fuel n

/-- A statement that begins with the name of a variable or a type. -/
def pNamed : Nat → Nat → P (Stm → Stm)
  | 0, _ => failure
  | fuel + 1, x => do
    match ← next with
    | .id y => do
      if ← opt (.sym S.lbr) then
        sym S.rbr
        sym S.semi
        pure (.zero x y)
      else do
      sym S.semi
      pure (.obj x y)
    | .sym s =>
      if s == S.dot then do
        let f ← ident
        if ← opt (.sym S.lpar) then
          let as ← pArgs fuel
          sym S.semi
          pure (.act x f (.ofList as))
        else do
          sym S.assign
          let e ← pExp fuel
          sym S.semi
          pure (.set x f e)
      else if s == S.assign then do
        let e ← pExp fuel
        sym S.semi
        pure (.assign x e)
      else
        match updateOp s with
        | some op => do
          let e ← pExp fuel
          sym S.semi
          pure (.update x op e)
        | none => failure
    | _ => failure
end

/-! ### Definitions -/

/-- `typename A, auto B>` -/
def pTParams : Nat → P (List Nat)
  | 0 => failure
  | fuel + 1 => do
    if ← opt (.id N.«auto») then pure () else kw N.«typename»
    let x ← ident
    if ← opt (.sym S.comma) then
      let xs ← pTParams fuel
      pure (x :: xs)
    else do
      sym S.gt
      pure [x]

/-- Enumerators up to and including `}`. -/
def pEnumerators : Nat → P (List Nat)
  | 0 => failure
  | fuel + 1 => do
    if ← opt (.sym S.rbr) then pure []
    else
      let x ← ident
      sym S.comma
      let xs ← pEnumerators fuel
      pure (x :: xs)

/-- Data members up to and including `}`. -/
def pFields : Nat → P (List Field)
  | 0 => failure
  | fuel + 1 => do
    if ← opt (.sym S.rbr) then pure []
    else
      let t ← pTy 5
      let x ← ident
      let i ← (do
        if ← opt (.sym S.assign) then
          let e ← pExp 20
          pure (Exps.cons e .nil)
        else pure .nil)
      sym S.semi
      let fs ← pFields fuel
      pure (⟨t, x, i⟩ :: fs)

/-- The rest of a function after its template parameters; `none` for a declaration. -/
def pFunc (tps : List Nat) : P (Option Func) := do
  let t ← pTy 5
  let _ ← opt (.id N.«operator»)
  let _ ← opt (.str [])
  let f ← ident
  sym S.lpar
  let ps ← pParams 5
  let _ ← opt (.id N.«noexcept»)
  if ← opt (.sym S.semi) then pure none
  else do
    sym S.lbr
    let b ← pStms 100
    sym S.rbr
    pure (some ⟨f, tps, ps, t, b⟩)

/-- Definitions up to the end or a closing brace. -/
def pItems : Nat → P Program
  | 0 => failure
  | fuel + 1 => do
    match ← peek with
    | none => pure ⟨[], [], [], [], []⟩
    | some t =>
      if t = .sym S.rbr then pure ⟨[], [], [], [], []⟩
      else if t = .sym S.semi then do
        let _ ← next
        pItems fuel
      else if t = .id N.«namespace» then do
        let _ ← next
        let _ ← ident
        sym S.lbr
        let p ← pItems fuel
        sym S.rbr
        let q ← pItems fuel
        pure (p.append q)
      else if t = .id N.«enum» then do
        let _ ← next
        kw N.«class»
        let x ← ident
        sym S.colon
        let _ ← ident
        sym S.lbr
        let xs ← pEnumerators 10
        sym S.semi
        let q ← pItems fuel
        pure (Program.append ⟨[], [], [(x, xs)], [], []⟩ q)
      else if t = .id N.«struct» then do
        let _ ← next
        let x ← ident
        sym S.lbr
        let fs ← pFields 10
        sym S.semi
        let q ← pItems fuel
        pure (Program.append ⟨[], [(x, fs)], [], [], []⟩ q)
      else do
        let tps ← (do
          if ← opt (.id N.«template») then
            sym S.lt
            pTParams 8
          else pure [])
        let f ← pFunc tps
        let q ← pItems fuel
        pure (Program.append ⟨f.toList, [], [], [], []⟩ q)

/-- Reads definitions. -/
def parse (lines : List String) : Option Program :=
  match (pItems 40).run (lex lines) with
  | some (p, []) => some p
  | _ => none

end Ieme.Script
