import Verif.Model.ScanSyntax
import Verif.Model.ChronoNames

/-!
# Reading the text of `chrono.hpp`

Nothing here models a function of `/repo`; it models the part of the C++ grammar in which
`/repo/include/ieme/chrono.hpp` is written: alias templates and default template arguments, one
partial specialisation with a base class, functions that consist of a `return` statement, and a
class with member types, a constant and a static function.  The tokens are those of
`Verif/Model/ScanSyntax.lean`.

Namespaces are read and forgotten, as are `typename`, `const`, `constexpr`, `static`, `noexcept`, `&`
and access specifiers.
-/

namespace Ieme.ChronoText

open Header hiding Tok P next peek sym kw at? opt ident Ty Func Cls Program Item
open Script (Tok P next peek sym kw at? opt ident lex)

/-! ## Syntax -/

/-- Type expressions; `q` says that the name is qualified, so that names in the class do not hide
it. -/
inductive Ty where
  | name (q : Bool) (n : Nat)
  | app1 (q : Bool) (n : Nat) (a : Ty)
  | app2 (q : Bool) (n : Nat) (a b : Ty)
  | app3 (q : Bool) (n : Nat) (a b c : Ty)
  | app4 (q : Bool) (n : Nat) (a b c d : Ty)
  /-- `t::x` -/
  | mem (t : Ty) (x : Nat)
deriving DecidableEq

inductive Exp where
  | var (x : Nat)
  /-- `t(e)` -/
  | cast (t : Ty) (e : Exp)
  /-- `t::f()` -/
  | stat (t : Ty) (f : Nat)
  /-- `t::x` -/
  | const (t : Ty) (x : Nat)
deriving DecidableEq

/-- A template parameter and its default. -/
structure TParam where
  name : Nat
  default : Option Ty
deriving DecidableEq

structure Alias where
  tparams : List TParam
  name : Nat
  ty : Ty
deriving DecidableEq

/-- A function; a declaration has no body. -/
structure Func where
  tparams : List TParam
  ret : Ty
  name : Nat
  params : List (Ty × Nat)
  body : Option Exp
deriving DecidableEq

structure Cls where
  tparams : List TParam
  name : Nat
  uses : List (Nat × Ty)
  consts : List (Nat × Exp)
  funcs : List Func
deriving DecidableEq

/-- A partial specialisation `name<arg>` that is derived from `base`. -/
structure Special where
  tparams : List TParam
  name : Nat
  arg : Ty
  base : Ty
deriving DecidableEq

structure Program where
  specials : List Special
  aliases : List Alias
  classes : List Cls
  funcs : List Func
deriving DecidableEq

def Program.append (a b : Program) : Program :=
  ⟨a.specials ++ b.specials, a.aliases ++ b.aliases, a.classes ++ b.classes, a.funcs ++ b.funcs⟩

/-! ## The grammar -/

/-- The words that are read and forgotten. -/
def forgotten : List Nat :=
  [N.«const», N.«constexpr», N.«static», N.«typename», N.«noexcept»]

def quals : Nat → P Unit
  | 0 => pure ()
  | fuel + 1 => do
    match ← peek with
    | some (.id n) =>
      if forgotten.contains n then do
        let _ ← next
        quals fuel
      else pure ()
    | some (.sym s) =>
      if s == S.amp then do
        let _ ← next
        quals fuel
      else pure ()
    | _ => pure ()

/-- A name.  `std::` and `ops::` are kept, `ieme::` and `::ieme::chrono::` only make it qualified. -/
def baseName : P (Bool × Nat) := do
  if ← opt (.sym S.scope) then
    kw N.«ieme»
    sym S.scope
    kw N.«chrono»
    sym S.scope
    let n ← ident
    pure (true, n)
  else do
    let a ← ident
    if a == N.«ieme» then do
      sym S.scope
      let n ← ident
      pure (true, n)
    else if a == N.«std» then do
      sym S.scope
      let b ← ident
      if b == N.«chrono» then do
        sym S.scope
        let c ← ident
        pure (true, joinName (joinName a b) c)
      else pure (true, joinName a b)
    else if a == N.«ops» then do
      sym S.scope
      let b ← ident
      pure (true, joinName a b)
    else pure (false, a)

def members : Nat → Ty → P Ty
  | 0, t => pure t
  | fuel + 1, t => do
    if ← opt (.sym S.scope) then
      let x ← ident
      members fuel (.mem t x)
    else pure t

mutual
def pTy : Nat → P Ty
  | 0 => failure
  | fuel + 1 => do
    quals 5
    let (q, n) ← baseName
    let t ← (do
      if ← opt (.sym S.lt) then
        match ← pTyArgs fuel with
        | [a] => pure (.app1 q n a)
        | [a, b] => pure (.app2 q n a b)
        | [a, b, c] => pure (.app3 q n a b c)
        | [a, b, c, d] => pure (.app4 q n a b c d)
        | _ => failure
      else pure (Ty.name q n))
    let t ← members 2 t
    quals 5
    pure t

/-- Template arguments up to and including `>`. -/
def pTyArgs : Nat → P (List Ty)
  | 0 => failure
  | fuel + 1 => do
    let t ← pTy fuel
    if ← opt (.sym S.comma) then
      let ts ← pTyArgs fuel
      pure (t :: ts)
    else do
      sym S.gt
      pure [t]
end

/-- Template parameters up to and including `>`. -/
def pTParams : Nat → P (List TParam)
  | 0 => failure
  | fuel + 1 => do
    kw N.«typename»
    let x ← ident
    let d ← (do
      if ← opt (.sym S.assign) then
        let t ← pTy 10
        pure (some t)
      else pure none)
    if ← opt (.sym S.comma) then
      let xs ← pTParams fuel
      pure (⟨x, d⟩ :: xs)
    else do
      sym S.gt
      pure [⟨x, d⟩]

def pExp : Nat → P Exp
  | 0 => failure
  | fuel + 1 => do
    let t ← pTy 10
    if ← opt (.sym S.lpar) then
      if ← opt (.sym S.rpar) then
        match t with
        | .mem u f => pure (.stat u f)
        | _ => failure
      else
        let e ← pExp fuel
        sym S.rpar
        pure (.cast t e)
    else
      match t with
      | .name false x => pure (.var x)
      | .mem u x => pure (.const u x)
      | _ => failure

/-- Parameters up to and including `)`. -/
def pParams : Nat → P (List (Ty × Nat))
  | 0 => failure
  | fuel + 1 => do
    if ← opt (.sym S.rpar) then pure []
    else do
      let t ← pTy 10
      let x ← ident
      if ← opt (.sym S.comma) then
        let ps ← pParams fuel
        pure ((t, x) :: ps)
      else do
        sym S.rpar
        pure [(t, x)]

/-- The rest of a function after its name. -/
def pRest (tps : List TParam) (t : Ty) (f : Nat) : P Func := do
  sym S.lpar
  let ps ← pParams 5
  quals 5
  if ← opt (.sym S.semi) then pure ⟨tps, t, f, ps, none⟩
  else do
    sym S.lbr
    kw N.«return»
    let e ← pExp 10
    sym S.semi
    sym S.rbr
    pure ⟨tps, t, f, ps, some e⟩

/-- `x = t;` -/
def pAlias (tps : List TParam) : P Alias := do
  let x ← ident
  sym S.assign
  let t ← pTy 10
  sym S.semi
  pure ⟨tps, x, t⟩

/-- What stands in a class, up to and including `}`. -/
def pMembers (tps : List TParam) (n : Nat) : Nat → P Cls
  | 0 => failure
  | fuel + 1 => do
    if ← opt (.sym S.rbr) then pure ⟨tps, n, [], [], []⟩
    else if ← opt (.id N.«public») then
      sym S.colon
      pMembers tps n fuel
    else if ← opt (.id N.«using») then
      let a ← pAlias []
      let c ← pMembers tps n fuel
      pure { c with uses := (a.name, a.ty) :: c.uses }
    else do
      let t ← pTy 10
      let x ← ident
      if ← opt (.sym S.assign) then
        let e ← pExp 10
        sym S.semi
        let c ← pMembers tps n fuel
        pure { c with consts := (x, e) :: c.consts }
      else do
        let f ← pRest [] t x
        let c ← pMembers tps n fuel
        pure { c with funcs := f :: c.funcs }

/-- The rest of a partial specialisation after `struct`. -/
def pSpecial (tps : List TParam) : P Special := do
  let n ← ident
  sym S.lt
  match ← pTyArgs 10 with
  | [t] =>
    sym S.colon
    let b ← pTy 10
    sym S.lbr
    sym S.rbr
    sym S.semi
    pure ⟨tps, n, t, b⟩
  | _ => failure

def pItem (tps : List TParam) : P Program := do
  if ← opt (.id N.«struct») then
    let s ← pSpecial tps
    pure ⟨[s], [], [], []⟩
  else if ← opt (.id N.«using») then
    let a ← pAlias tps
    pure ⟨[], [a], [], []⟩
  else if ← opt (.id N.«class») then
    let n ← ident
    sym S.lbr
    let c ← pMembers tps n 20
    sym S.semi
    pure ⟨[], [], [c], []⟩
  else do
    let t ← pTy 10
    let f ← ident
    let f ← pRest tps t f
    pure ⟨[], [], [], [f]⟩

def pItems : Nat → P Program
  | 0 => failure
  | fuel + 1 => do
    match ← peek with
    | none => pure ⟨[], [], [], []⟩
    | some t =>
      if t = .sym S.semi ∨ t = .sym S.rbr then do
        let _ ← next
        pItems fuel
      else if t = .id N.«namespace» then do
        let _ ← next
        let _ ← ident
        sym S.lbr
        pItems fuel
      else do
        let tps ← (do
          if ← opt (.id N.«template») then
            sym S.lt
            pTParams 5
          else pure [])
        let p ← pItem tps
        let q ← pItems fuel
        pure (p.append q)

/-- Reads definitions. -/
def parse (lines : List String) : Option Program :=
  match (pItems 60).run (lex lines) with
  | some (p, []) => some p
  | _ => none

end Ieme.ChronoText
