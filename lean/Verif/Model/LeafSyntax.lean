import Verif.Model.ScanSyntax
import Verif.Model.LeafNames

/-!
# Reading the text of `hash.hpp`, `limits.hpp` and `fraction_literals.hpp`

The functions of these headers consist of a `return` statement.  The tokens are those of
`Verif/Model/ScanSyntax.lean`.

* Namespaces are read and forgotten, as are `ieme::`, `typename`, `const`, `constexpr`, `static`,
  `noexcept`, `&`, access specifiers, and declarations of functions that are defined further down.
* Of default template arguments nothing is kept.
* An expression has at most one binary operator outside parentheses.
-/

namespace Ieme.Leaf

open Header hiding Tok P next peek sym kw at? opt ident
open Script (Tok P next peek sym kw at? opt ident lex)

/-! ## Syntax trees -/

/-- Types, and other template arguments. -/
inductive Ty where
  | name (n : Nat)
  | app1 (n : Nat) (a : Ty)
  | app2 (n : Nat) (a b : Ty)
  | app3 (n : Nat) (a b c : Ty)
  /-- `t::x` -/
  | mem (t : Ty) (x : Nat)
deriving DecidableEq

inductive Op where
  | xor | shl | div
deriving DecidableEq

/-- Expressions. -/
inductive Exp where
  | num (n : Nat)
  | var (x : Nat)
  /-- `x<t>` -/
  | tmpl (x : Nat) (t : Ty)
  /-- `e.x` -/
  | fld (e : Exp) (x : Nat)
  /-- `e.f()` -/
  | meth (e : Exp) (f : Nat)
  /-- `f(a)` -/
  | call1 (f : Nat) (a : Exp)
  /-- `f(a, b)` -/
  | call2 (f : Nat) (a b : Exp)
  /-- `t::f()` -/
  | stat (t : Ty) (f : Nat)
  /-- `t::x` -/
  | const (t : Ty) (x : Nat)
  /-- `t()(e)` -/
  | functor (t : Ty) (e : Exp)
  /-- `static_cast<t>(e)`, `typename t(e)` -/
  | cast (t : Ty) (e : Exp)
  | neg (e : Exp)
  | bin (op : Op) (a b : Exp)
deriving DecidableEq

/-- The bodies of functions. -/
inductive Body where
  /-- `{ return e; }` -/
  | ret (e : Exp)
  /-- `{ return {a, b}; }` -/
  | brace (a b : Exp)
  /-- `: x {e} {}` -/
  | init (x : Nat) (e : Exp)
deriving DecidableEq

/-- A function; `owner` is the class of a member function. -/
structure Func where
  tparams : List Nat
  owner : Option Ty
  name : Nat
  params : List (Ty × Nat)
  ret : Ty
  body : Body
deriving DecidableEq

/-- A class template, or a partial specialisation for `arg`. -/
structure Cls where
  tparams : List Nat
  name : Nat
  arg : Option Ty
  /-- the `using` declarations -/
  uses : List (Nat × Ty)
  /-- the static data members -/
  consts : List (Nat × Exp)
  /-- the other data members -/
  fields : List (Nat × Ty)
deriving DecidableEq

structure Program where
  classes : List Cls
  funcs : List Func
deriving DecidableEq

def Program.append (a b : Program) : Program := ⟨a.classes ++ b.classes, a.funcs ++ b.funcs⟩

/-! ## The grammar -/

/-- The words that are read and forgotten. -/
def forgotten : List Nat :=
  [N.«const», N.«constexpr», N.«static», N.«typename», N.«noexcept»]

def quals : Nat → P Unit
  | 0 => pure ()
  | fuel + 1 => do
    match ← peek with
    | some (.id n) =>
      if forgotten.contains n then do
        let _ ← next
        quals fuel
      else pure ()
    | some (.sym s) =>
      if s == S.amp then do
        let _ ← next
        quals fuel
      else pure ()
    | _ => pure ()

/-- The further words of `unsigned long long int`. -/
def moreWords : Nat → Nat → P Nat
  | 0, n => pure n
  | fuel + 1, n => do
    match ← peek with
    | some (.id m) =>
      if m == N.«long» || m == N.«int» then do
        let _ ← next
        moreWords fuel (joinName n m)
      else pure n
    | _ => pure n

/-- A name; `std::` is kept. -/
def baseName : P Nat := do
  let a ← ident
  if a == N.«ieme» then do
    sym S.scope
    ident
  else if a == N.«std» then do
    sym S.scope
    let b ← ident
    pure (joinName a b)
  else if a == N.«long» || a == N.«unsigned» then moreWords 3 a
  else pure a

/-- `::x`, but not `::operator` -/
def nested : P (Option Nat) := fun ts => match ts with
  | .sym s :: .id x :: rest =>
    if s == S.scope && x != N.«operator» then some (some x, rest) else some (none, ts)
  | _ => some (none, ts)

def members : Nat → Ty → P Ty
  | 0, t => pure t
  | fuel + 1, t => do
    match ← nested with
    | some x => members fuel (.mem t x)
    | none => pure t

mutual
def pTy : Nat → P Ty
  | 0 => failure
  | fuel + 1 => do
    quals 5
    let n ← baseName
    let t ← (do
      if ← opt (.sym S.lt) then
        match ← pTyArgs fuel with
        | [a] => pure (.app1 n a)
        | [a, b] => pure (.app2 n a b)
        | [a, b, c] => pure (.app3 n a b c)
        | _ => failure
      else pure (Ty.name n))
    let t ← members 2 t
    quals 5
    pure t

/-- Template arguments up to and including `>`. -/
def pTyArgs : Nat → P (List Ty)
  | 0 => failure
  | fuel + 1 => do
    let t ← pTy fuel
    if ← opt (.sym S.comma) then
      let ts ← pTyArgs fuel
      pure (t :: ts)
    else do
      sym S.gt
      pure [t]
end

/-- `^` -/
abbrev caret : Nat := 94

def binOp (s : Nat) : Option Op :=
  if s == caret then some .xor
  else if s == S.shl then some .shl
  else if s == S.slash then some .div
  else none

mutual
def pExp : Nat → P Exp
  | 0 => failure
  | fuel + 1 => do
    let a ← pUnary fuel
    match ← peek with
    | some (.sym s) =>
      match binOp s with
      | some op =>
        let _ ← next
        let b ← pUnary fuel
        pure (.bin op a b)
      | none => pure a
    | _ => pure a

def pUnary : Nat → P Exp
  | 0 => failure
  | fuel + 1 => do
    if ← opt (.sym S.minus) then
      let e ← pUnary fuel
      pure (.neg e)
    else do
      let e ← pPrimary fuel
      pPostfix fuel e

def pPostfix : Nat → Exp → P Exp
  | 0, _ => failure
  | fuel + 1, e => do
    if ← opt (.sym S.dot) then
      let x ← ident
      if ← opt (.sym S.lpar) then
        sym S.rpar
        pPostfix fuel (.meth e x)
      else pPostfix fuel (.fld e x)
    else pure e

def pPrimary : Nat → P Exp
  | 0 => failure
  | fuel + 1 => do
    match ← peek with
    | some (.num n) => do
      let _ ← next
      pure (.num n)
    | some (.sym _) => do
      sym S.lpar
      let e ← pExp fuel
      sym S.rpar
      pure e
    | some (.id n) =>
      if n == N.«static_cast» then do
        let _ ← next
        sym S.lt
        let t ← pTy 10
        sym S.gt
        sym S.lpar
        let e ← pExp fuel
        sym S.rpar
        pure (.cast t e)
      else do
        let isType ← at? (.id N.«typename»)
        let t ← pTy 10
        if isType then
          sym S.lpar
          let e ← pExp fuel
          sym S.rpar
          pure (.cast t e)
        else
          let called ← opt (.sym S.lpar)
          match t with
          | .name x =>
            if called then
              let a ← pExp fuel
              if ← opt (.sym S.comma) then
                let b ← pExp fuel
                sym S.rpar
                pure (.call2 x a b)
              else do
                sym S.rpar
                pure (.call1 x a)
            else pure (.var x)
          | .app1 x u =>
            if called then
              sym S.rpar
              sym S.lpar
              let e ← pExp fuel
              sym S.rpar
              pure (.functor t e)
            else pure (.tmpl x u)
          | .mem u x =>
            if called then
              sym S.rpar
              pure (.stat u x)
            else pure (.const u x)
          | _ => failure
    | _ => failure
end

/-- Reads up to `,` or `>`. -/
def skipDefault : Nat → P Unit
  | 0 => failure
  | fuel + 1 => do
    match ← peek with
    | some t =>
      if t = .sym S.comma ∨ t = .sym S.gt then pure ()
      else do
        let _ ← next
        skipDefault fuel
    | none => failure

/-- Template parameters up to and including `>`. -/
def pTParams : Nat → P (List Nat)
  | 0 => failure
  | fuel + 1 => do
    let _ ← ident
    let x ← ident
    skipDefault 5
    if ← opt (.sym S.comma) then
      let xs ← pTParams fuel
      pure (x :: xs)
    else do
      sym S.gt
      pure [x]

/-- Parameters up to and including `)`. -/
def pParams : Nat → P (List (Ty × Nat))
  | 0 => failure
  | fuel + 1 => do
    if ← opt (.sym S.rpar) then pure []
    else do
      let t ← pTy 10
      let x ← ident
      if ← opt (.sym S.comma) then
        let ps ← pParams fuel
        pure ((t, x) :: ps)
      else do
        sym S.rpar
        pure [(t, x)]

/-- `return e; }` or `return {a, b}; }` -/
def pBody : P Body := do
  kw N.«return»
  if ← opt (.sym S.lbr) then
    let a ← pExp 20
    sym S.comma
    let b ← pExp 20
    sym S.rbr
    sym S.semi
    sym S.rbr
    pure (.brace a b)
  else do
    let e ← pExp 20
    sym S.semi
    sym S.rbr
    pure (.ret e)

/-- `x {e} {}` -/
def pInit : P Body := do
  let x ← ident
  sym S.lbr
  let e ← pExp 20
  sym S.rbr
  sym S.lbr
  sym S.rbr
  pure (.init x e)

/-- The name after `operator`; a literal operator has the name of its suffix. -/
def pOperator : P Nat := do
  match ← next with
  | .str [] => ident
  | .sym s =>
    if s == S.lpar then do
      sym S.rpar
      pure N.«operator()»
    else pure (N.«operator» * 256 + s)
  | _ => failure

/-- The rest of a function after its return type and name, or of a constructor. -/
def pRest (tps : List Nat) (owner : Option Ty) (f : Nat) (t : Ty) : P (Option Func) := do
  sym S.lpar
  let ps ← pParams 5
  quals 5
  let t ← (do
    if ← opt (.sym Script.arrow) then pTy 10
    else pure t)
  match ← next with
  | .sym s =>
    if s == S.semi then pure none
    else if s == S.lbr then do
      let b ← pBody
      pure (some ⟨tps, owner, f, ps, t, b⟩)
    else if s == S.colon then do
      let b ← pInit
      pure (some ⟨tps, owner, f, ps, t, b⟩)
    else failure
  | _ => failure

def pFunc (tps : List Nat) : P (Option Func) := do
  let t ← pTy 10
  if ← at? (.sym S.lpar) then
    match t with
    | .mem o f => pRest tps (some o) f o
    | _ => failure
  else if ← opt (.id N.«operator») then
    let f ← pOperator
    pRest tps none f t
  else do
    let d ← pTy 10
    if ← opt (.sym S.scope) then
      kw N.«operator»
      let f ← pOperator
      pRest tps (some d) f t
    else
      match d with
      | .name f => pRest tps none f t
      | .mem o f => pRest tps (some o) f t
      | _ => failure

/-- What stands in a class. -/
inductive Item where
  | use (x : Nat) (t : Ty)
  | const (x : Nat) (e : Exp)
  | field (x : Nat) (t : Ty)
  | func (f : Option Func)

/-- Reads up to and including `;`. -/
def skip : Nat → P Unit
  | 0 => failure
  | fuel + 1 => do
    if ← opt (.sym S.semi) then pure ()
    else do
      let _ ← next
      skip fuel

def pMember (tps : List Nat) (self : Ty) : P Item := do
  if ← opt (.id N.«using») then
    let x ← ident
    sym S.assign
    let t ← pTy 10
    sym S.semi
    pure (.use x t)
  else do
    let t ← pTy 10
    if ← at? (.sym S.lpar) then
      skip 20
      pure (.func none)
    else if ← at? (.id N.«operator») then
      skip 30
      pure (.func none)
    else do
      let x ← ident
      if ← opt (.sym S.assign) then
        let e ← pExp 20
        sym S.semi
        pure (.const x e)
      else if ← opt (.sym S.semi) then pure (.field x t)
      else do
        let f ← pRest tps (some self) x t
        pure (.func f)

def pMembers (tps : List Nat) (self : Ty) : Nat → P (List Item)
  | 0 => failure
  | fuel + 1 => do
    match ← peek with
    | some t =>
      if t = .sym S.rbr then do
        let _ ← next
        pure []
      else if t = .id N.«public» ∨ t = .id N.«private» then do
        let _ ← next
        sym S.colon
        pMembers tps self fuel
      else do
        let i ← pMember tps self
        let is ← pMembers tps self fuel
        pure (i :: is)
    | none => failure

/-- The class itself, inside a class template. -/
def selfTy (n : Nat) : List Nat → Option Ty → Ty
  | _, some t => .app1 n t
  | [a], none => .app1 n (.name a)
  | [a, b], none => .app2 n (.name a) (.name b)
  | _, none => .name n

def Item.use? : Item → Option (Nat × Ty)
  | .use x t => some (x, t)
  | _ => none

def Item.const? : Item → Option (Nat × Exp)
  | .const x e => some (x, e)
  | _ => none

def Item.field? : Item → Option (Nat × Ty)
  | .field x t => some (x, t)
  | _ => none

def Item.func? : Item → Option Func
  | .func f => f
  | _ => none

def pClass (tps : List Nat) : P Program := do
  let n ← ident
  if ← opt (.sym S.semi) then pure ⟨[], []⟩
  else do
    let arg ← (do
      if ← opt (.sym S.lt) then
        match ← pTyArgs 10 with
        | [t] => pure (some t)
        | _ => failure
      else pure none)
    let _ ← opt (.id N.«final»)
    sym S.lbr
    let is ← pMembers tps (selfTy n tps arg) 60
    sym S.semi
    pure ⟨[⟨tps, n, arg, is.filterMap Item.use?, is.filterMap Item.const?,
      is.filterMap Item.field?⟩], is.filterMap Item.func?⟩

def pItems : Nat → P Program
  | 0 => failure
  | fuel + 1 => do
    match ← peek with
    | none => pure ⟨[], []⟩
    | some t =>
      if t = .sym S.semi ∨ t = .sym S.rbr then do
        let _ ← next
        pItems fuel
      else if t = .id N.«namespace» then do
        let _ ← next
        let _ ← ident
        sym S.lbr
        pItems fuel
      else do
        let tps ← (do
          if ← opt (.id N.«template») then
            sym S.lt
            pTParams 5
          else pure [])
        let p ← (do
          if (← opt (.id N.«class»)) || (← opt (.id N.«struct»)) then pClass tps
          else do
            let f ← pFunc tps
            pure ⟨[], f.toList⟩)
        let q ← pItems fuel
        pure (p.append q)

/-- Reads definitions. -/
def parse (lines : List String) : Option Program :=
  match (pItems 200).run (lex lines) with
  | some (p, []) => some p
  | _ => none

end Ieme.Leaf
