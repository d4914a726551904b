import Verif.Model.LeafSyntax
import Verif.Model.HeaderText
import Verif.Model.StreamExcept

/-!
# The stream operators as program text

The text is that of `/repo/include/ieme/raw_fraction.hpp:57-71` and
`/repo/include/ieme/fraction.hpp:499-511`, taken from the copies of these headers in
`Verif/Model/HeaderText.lean`.  Nothing else here models a function of `/repo`: there is the part of
the C++ grammar in which the operators are written, and their evaluation over any stream, given by
what it does with integers and characters.

* Templates are not instantiated: the representation type is part of the stream.
* Of the arguments of `ignore` the first is a call without arguments and the second a character.
* An expression is a chain of `<<` or of `>>` with variables, members and characters as operands.
-/

namespace Ieme.Header

@[simp] abbrev N.«std::streamsize» : Nat := 599474839082573684870551166769527397

end Ieme.Header

namespace Ieme.StreamText

open Header hiding Tok P next peek sym kw at? opt ident Func Program
open Script (Tok P next peek sym kw at? opt ident lex)
open Stream (Call)

/-! ## Syntax -/

inductive Dir where
  /-- `<<` -/
  | out
  /-- `>>` -/
  | inp
deriving DecidableEq

inductive Operand where
  | chr (c : Nat)
  | var (x : Nat)
  /-- `x.f` -/
  | fld (x f : Nat)
deriving DecidableEq

/-- `x << a << b` and the like -/
structure Chain where
  base : Nat
  steps : List (Dir × Operand)
deriving DecidableEq

inductive Stmt where
  | io (e : Chain)
  | ret (e : Chain)
  /-- `x.f(g(), 'c')` -/
  | method (x f : Nat) (g : Leaf.Ty) (c : Nat)
deriving DecidableEq

structure Param where
  ty : Leaf.Ty
  isConst : Bool
  isRef : Bool
  name : Nat
deriving DecidableEq

structure Func where
  op : Dir
  stream : Param
  value : Param
  isNoexcept : Bool
  body : List Stmt
deriving DecidableEq

abbrev Program := List Func

/-! ## The grammar -/

/-- `<<` or `>>`; the latter is two tokens, as it also closes template arguments. -/
def pDir : P (Option Dir) := do
  if ← opt (.sym S.shl) then pure (some .out)
  else if ← opt (.sym S.gt) then
    sym S.gt
    pure (some .inp)
  else pure none

def pOperand : P Operand := do
  match ← next with
  | .chr c => pure (.chr c)
  | .id x =>
    if ← opt (.sym S.dot) then
      let f ← ident
      pure (.fld x f)
    else pure (.var x)
  | _ => failure

def pSteps : Nat → P (List (Dir × Operand))
  | 0 => failure
  | fuel + 1 => do
    match ← pDir with
    | some d =>
      let a ← pOperand
      let rest ← pSteps fuel
      pure ((d, a) :: rest)
    | none => pure []

/-- A type without `const` and `&`. -/
def pTy : P Leaf.Ty := do
  let n ← Leaf.baseName
  if ← opt (.sym S.lt) then
    match ← Leaf.pTyArgs 5 with
    | [a] => pure (.app1 n a)
    | [a, b] => pure (.app2 n a b)
    | _ => failure
  else pure (.name n)

def pParam : P Param := do
  let t ← pTy
  let c ← opt (.id N.«const»)
  let r ← opt (.sym S.amp)
  let x ← ident
  pure ⟨t, c, r, x⟩

def pStmt : P Stmt := do
  if ← opt (.id N.«return») then
    let x ← ident
    let l ← pSteps 5
    sym S.semi
    pure (.ret ⟨x, l⟩)
  else do
    let x ← ident
    if ← opt (.sym S.dot) then
      let f ← ident
      sym S.lpar
      let g ← Leaf.pTy 5
      sym S.lpar
      sym S.rpar
      sym S.comma
      match ← next with
      | .chr c =>
        sym S.rpar
        sym S.semi
        pure (.method x f g c)
      | _ => failure
    else
      let l ← pSteps 5
      sym S.semi
      pure (.io ⟨x, l⟩)

/-- Statements up to and including `}`. -/
def pStmts : Nat → P (List Stmt)
  | 0 => failure
  | fuel + 1 => do
    if ← opt (.sym S.rbr) then pure []
    else do
      let s ← pStmt
      let rest ← pStmts fuel
      pure (s :: rest)

def pFunc : P Func := do
  kw N.«template»
  sym S.lt
  let _ ← Leaf.pTParams 5
  let t ← pTy
  sym S.amp
  kw N.«operator»
  match ← pDir with
  | none => failure
  | some d =>
    sym S.lpar
    let a ← pParam
    sym S.comma
    let b ← pParam
    sym S.rpar
    let n ← opt (.id N.«noexcept»)
    sym S.lbr
    let body ← pStmts 5
    if t = a.ty then pure ⟨d, a, b, n, body⟩ else failure

def pFuncs : Nat → P Program
  | 0 => failure
  | fuel + 1 => do
    match ← peek with
    | none => pure []
    | some _ =>
      let f ← pFunc
      let rest ← pFuncs fuel
      pure (f :: rest)

def parse (lines : List String) : Option Program :=
  match (pFuncs 5).run (lex lines) with
  | some (p, []) => some p
  | _ => none

/-! ## Evaluation -/

/-- Objects: an integer, a `raw_fraction`, a `fraction`. -/
inductive Obj where
  | int (n : Int)
  | raw (r : Raw)
  | frac (r : Raw)
deriving DecidableEq

/-- A data member, `/repo/include/ieme/raw_fraction.hpp:16` and
`/repo/include/ieme/fraction.hpp:68`. -/
def Obj.field : Obj → Nat → Option Obj
  | .raw r, f =>
    if f = N.«numerator» then some (.int r.num)
    else if f = N.«denominator» then some (.int r.den)
    else none
  | .frac r, f => if f = N.«raw_» then some (.raw r) else none
  | .int _, _ => none

/-- The object after a data member has been given a value. -/
def Obj.setField : Obj → Nat → Obj → Option Obj
  | .raw r, f, .int n =>
    if f = N.«numerator» then some (.raw ⟨n, r.den⟩)
    else if f = N.«denominator» then some (.raw ⟨r.num, n⟩)
    else none
  | .frac _, f, .raw r => if f = N.«raw_» then some (.frac r) else none
  | _, _, _ => none

/-- A kind of stream with the state `σ`: what `stream << x`, `stream << c` and `stream >> x` do for
integers `x` of some type and characters `c`, and `stream.ignore` with the greatest count. -/
structure Device (σ : Type) where
  put : σ → Int → Call σ
  putChar : σ → Char → Call σ
  get : σ → Int → Call (Int × σ)
  ignore : σ → Char → Call σ

variable {σ : Type}

/-- What follows a call; `none` is a program that is not understood. -/
def andThen {α β : Type} : Option (Call α) → (α → Option (Call β)) → Option (Call β)
  | some (.returned a), k => k a
  | some .thrown, _ => some .thrown
  | some .terminated, _ => some .terminated
  | none, _ => none

/-- Does the type fit the object? -/
def fits : Leaf.Ty → Obj → Bool
  | .app1 n _, .raw _ => n == N.«raw_fraction»
  | .app2 n _ _, .frac _ => n == N.«fraction»
  | _, _ => false

/-- Overload resolution. -/
def choose (p : Program) (d : Dir) (v : Obj) : Option Func :=
  match p.filter fun f => f.op = d ∧ fits f.value.ty v with
  | [f] => some f
  | _ => none

/-- The functions of the program: the object and the stream after the call. -/
abbrev Invoke (σ : Type) := Dir → Obj → σ → Option (Call (Obj × σ))

/-- `stream << part` or `stream >> part` -/
def single (D : Device σ) (inv : Invoke σ) (d : Dir) (part : Obj) (s : σ) :
    Option (Call (Obj × σ)) :=
  match d, part with
  | .out, .int n => andThen (some (D.put s n)) fun s' => some (.returned (.int n, s'))
  | .inp, .int n => andThen (some (D.get s n)) fun r => some (.returned (.int r.1, r.2))
  | d, v => inv d v s

/-- One `<<` or `>>`. -/
def step (D : Device σ) (inv : Invoke σ) (f : Func) (v : Obj) (s : σ) :
    Dir → Operand → Option (Call (Obj × σ))
  | .out, .chr c => andThen (some (D.putChar s (Char.ofNat c))) fun s' => some (.returned (v, s'))
  | .inp, .chr _ => none
  | d, .var x =>
    if x ≠ f.value.name ∨ (d = .inp ∧ f.value.isConst) then none
    else single D inv d v s
  | d, .fld x y =>
    if x ≠ f.value.name ∨ (d = .inp ∧ f.value.isConst) then none
    else
      match v.field y with
      | none => none
      | some part => andThen (single D inv d part s) fun r =>
        match v.setField y r.1 with
        | none => none
        | some v' => some (.returned (v', r.2))

def steps (D : Device σ) (inv : Invoke σ) (f : Func) :
    List (Dir × Operand) → Obj → σ → Option (Call (Obj × σ))
  | [], v, s => some (.returned (v, s))
  | (d, a) :: rest, v, s => andThen (step D inv f v s d a) fun r => steps D inv f rest r.1 r.2

def chain (D : Device σ) (inv : Invoke σ) (f : Func) (e : Chain) (v : Obj) (s : σ) :
    Option (Call (Obj × σ)) :=
  if e.base = f.stream.name then steps D inv f e.steps v s else none

/-- `std::numeric_limits<std::streamsize>::max` -/
def greatest : Leaf.Ty :=
  .mem (.app1 N.«std::numeric_limits» (.name N.«std::streamsize»)) N.«max»

def run (D : Device σ) (inv : Invoke σ) (f : Func) :
    List Stmt → Obj → σ → Option (Call (Obj × σ))
  | [], _, _ => none
  | .ret e :: _, v, s => chain D inv f e v s
  | .io e :: rest, v, s => andThen (chain D inv f e v s) fun r => run D inv f rest r.1 r.2
  | .method x g a c :: rest, v, s =>
    if x = f.stream.name ∧ g = N.«ignore» ∧ a = greatest ∧ f.stream.ty = .name N.«std::istream» then
      andThen (some (D.ignore s (Char.ofNat c))) fun s' => run D inv f rest v s'
    else none

/-- A call.  A parameter that is not a reference is a copy; a stream can not be copied. -/
def enter (D : Device σ) (inv : Invoke σ) (f : Func) (v : Obj) (s : σ) :
    Option (Call (Obj × σ)) :=
  if f.stream.isRef ∧ ¬ f.stream.isConst then
    match andThen (run D inv f f.body v s) fun r =>
        some (.returned (if f.value.isRef then r.1 else v, r.2)) with
    | some c => some (if f.isNoexcept then c.noexcept else c)
    | none => none
  else none

/-- `stream << v` or `stream >> v`; `n` bounds the depth of calls. -/
def invoke (D : Device σ) (p : Program) : Nat → Invoke σ
  | 0, _, _, _ => none
  | n + 1, d, v, s =>
    match choose p d v with
    | some f => enter D (invoke D p n) f v s
    | none => none

/-! ## The program -/

/-- `/repo/include/ieme/raw_fraction.hpp:57-71` -/
def rawText : List String := (Header.Text.rawFraction.drop 56).take 15

/-- `/repo/include/ieme/fraction.hpp:499-511` -/
def fractionText : List String := (Header.Text.fraction.drop 498).take 13

/-- What the text parses to. -/
def program : Program := [
  ⟨.out, ⟨.name N.«std::ostream», false, true, N.«stream»⟩,
    ⟨.app1 N.«raw_fraction» (.name N.«Rep»), true, true, N.«value»⟩, true,
    [.ret ⟨N.«stream», [(.out, .fld N.«value» N.«numerator»), (.out, .chr 47),
      (.out, .fld N.«value» N.«denominator»)]⟩]⟩,
  ⟨.inp, ⟨.name N.«std::istream», false, true, N.«stream»⟩,
    ⟨.app1 N.«raw_fraction» (.name N.«Rep»), false, true, N.«value»⟩, true,
    [.io ⟨N.«stream», [(.inp, .fld N.«value» N.«numerator»)]⟩,
      .method N.«stream» N.«ignore» greatest 47,
      .ret ⟨N.«stream», [(.inp, .fld N.«value» N.«denominator»)]⟩]⟩,
  ⟨.out, ⟨.name N.«std::ostream», false, true, N.«stream»⟩,
    ⟨.app2 N.«fraction» (.name N.«Rep») (.name N.«Ops»), true, true, N.«value»⟩, true,
    [.ret ⟨N.«stream», [(.out, .fld N.«value» N.«raw_»)]⟩]⟩,
  ⟨.inp, ⟨.name N.«std::istream», false, true, N.«stream»⟩,
    ⟨.app2 N.«fraction» (.name N.«Rep») (.name N.«Ops»), false, true, N.«value»⟩, true,
    [.ret ⟨N.«stream», [(.inp, .fld N.«value» N.«raw_»)]⟩]⟩]

end Ieme.StreamText
