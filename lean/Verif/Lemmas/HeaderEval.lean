import Verif.Lemmas.HeaderFind
import Verif.Lemmas.Machine
import Verif.Lemmas.Fraction

/-!
# Evaluating the functions of the headers

The rules `pick` resolve a call to one function; the rules `exec_header` then run its body.  `seq`
is `>>=`, with the second argument left alone until the first is evaluated.
-/

namespace Ieme.Header

attribute [pick] Scope.global constFirst choose better Func.instantiate classTys fit deduce
  convertible evalTy applyTy builtinTy memberTy withAliases withConsts Val.type TVal.scope
  List.lookup_cons List.lookup_nil List.filter_cons

/-- `x >>= f` -/
def seq {α β : Type} (x : Res α) (f : α → Res β) : Res β := x >>= f

theorem seq_congr {α β : Type} {x y : Res α} (f : α → Res β) (h : x = y) :
    seq x f = seq y f := by rw [h]

@[congr] theorem exec_congr {α : Type} {p : Program} {inv : Invoke} {ret : Option TVal}
    {g : Val → Env → Res α} {s : Stmt} {seek seek' : Option Val} {env env' : Env} {k : Env → Res α}
    (h : seek = seek') (h' : env = env') :
    exec p inv ret g s seek env k = exec p inv ret g s seek' env' k := by rw [h, h']

theorem exec_map {α β : Type} {p : Program} {inv : Invoke} {ret : Option TVal} (h : α → β)
    (g : Val → Env → Res α) (s : Stmt) :
    ∀ (seek : Option Val) (env : Env) (k : Env → Res α),
    h <$> exec p inv ret g s seek env k =
      exec p inv ret (fun v env => h <$> g v env) s seek env (fun env => h <$> k env) := by
  induction s <;> rintro (_ | v) env k <;> simp_all only [exec, map_bind]
  · congr 1; funext a; split <;> [split; skip] <;> simp_all [illFormed]; rfl
  · congr 1; funext a; congr 1; funext o; split <;> simp_all
  · congr 1; funext a; split <;> simp_all

section Seq

variable {α β γ : Type}

theorem seq_pure (a : α) (f : α → Res β) : seq (pure a) f = f a :=
  Res.ok_bind_false _ _

theorem seq_bind (x : Res α) (g : α → Res β) (f : β → Res γ) :
    seq (x >>= g) f = x >>= fun a => seq (g a) f := by simp [seq]

theorem seq_ite {c : Prop} [Decidable c] (a b : Res α) (f : α → Res β) :
    seq (if c then a else b) f = if c then seq a f else seq b f := by split <;> rfl

theorem ite_bind {c : Prop} [Decidable c] (a b : Res α) (f : α → Res β) :
    (if c then a else b) >>= f = if c then a >>= f else b >>= f := by split <;> rfl

@[exec_header] theorem ite_and {c : Prop} [Decidable c] (b : Bool) :
    (if c then pure (.bool b) else pure (.bool false) : Res Val) = pure (.bool (decide c && b)) := by
  by_cases h : c <;> simp [h]

@[exec_header] theorem ite_or {c : Prop} [Decidable c] (b : Bool) :
    (if c then pure (.bool true) else pure (.bool b) : Res Val) = pure (.bool (decide c || b)) := by
  by_cases h : c <;> simp [h]

/-- `pure a`, once `a` is simplified. -/
def settled (a : α) : Res α := pure a

@[exec_header] theorem settled_eq (a : α) : settled a = pure a := rfl

@[exec_header, exec_header ↓] theorem orIll_some (a : α) : orIll (some a) = pure a := rfl

end Seq

attribute [exec_header] List.lookup_cons List.lookup_nil evalTy evalTys applyTy builtinTy memberTy
  Option.bind_eq_bind Option.bind_some Option.pure_def Scope.global TVal.scope Val.type
  Func.retTy opName updateName map_eq_pure_bind pure_bind bind_assoc
  List.isEmpty_cons List.isEmpty_nil Bool.false_eq_true
  List.cons_append List.nil_append List.append_nil
  TVal.int.injEq TVal.frac.injEq TVal.raw.injEq TVal.mixed.injEq Val.mode.injEq Val.rmode.injEq Ty.name.injEq decide_eq_true_eq Bool.decide_eq_true Bool.decide_and Bool.decide_or
  Bool.true_and Bool.and_true Bool.false_or Bool.or_false and_true true_and

open Lean Meta in
/-- Evaluates the first argument of `seq`, then goes on with the second. -/
simproc_decl stepSeq (seq _ _) := fun e => do
  let_expr seq _ _ x f := e | return .continue
  let r ← Simp.simp x
  let h ← mkAppM ``seq_congr #[f, ← r.getProof]
  let go (pf : Lean.Expr) : Simp.SimpM Simp.Step := do
    let some (_, _, rhs) := (← instantiateMVars (← inferType pf)).eq? | return .continue
    return .visit { expr := rhs.headBeta, proof? := some (← mkEqTrans h pf) }
  match r.expr.getAppFnArgs with
  | (``Pure.pure, #[_, _, _, a]) => go (← mkAppM ``seq_pure #[a, f])
  | (``Bind.bind, #[_, _, _, _, y, g]) => go (← mkAppM ``seq_bind #[y, g, f])
  | (``ite, #[_, _, _, a, b]) => go (← mkAppOptM ``seq_ite #[none, none, r.expr.getArg! 1, r.expr.getArg! 2, a, b, f])
  | _ => return .done { expr := (← mkAppM ``seq #[r.expr, f]), proof? := some h }

section Rules

variable {p : Program} {inv : Invoke} {env : Env} {sc : Scope} {tys : List (Nat × TVal)}
  {ents : List (Nat × Val)}

/-! ### Results of calls -/

@[exec_header] theorem value_seq {α : Type} (x : Res α) (f : α → Res (Val × Val)) :
    value (seq x f) = seq x fun a => value (f a) := by simp [value, seq]

@[exec_header] theorem value_pure (v w : Val) : value (pure (v, w)) = pure v := rfl

@[exec_header] theorem changed_pure (v w : Val) : changed (pure (v, w)) = pure w := rfl

@[exec_header] theorem value_diag (x : Res Val) :
    (value do let o ← x; pure (o, o)) = x := by simp [value]

@[exec_header, exec_header ↓] theorem value_run (f : Func) (args : List Val) :
    value (run p inv f tys sc none args) =
      seq (bindParams p inv ⟨sc, tys, []⟩ f.params args) fun params =>
      seq (orIll f.body) fun body =>
      exec p inv (f.retTy tys) (fun v env => value (results f none v env)) body none
        ⟨sc, tys, params⟩ (fun env => value (results f none .unit env)) := by
  simp [run, value, seq, exec_map]

@[exec_header, exec_header ↓] theorem value_run_some (f : Func) (o : Val) (args : List Val) :
    value (run p inv f tys sc (some o) args) =
      seq (settled o.fields) fun fields =>
      seq (bindParams p inv ⟨sc, tys, fields⟩ f.params args) fun params =>
      seq (settled (params ++ fields)) fun ents =>
      seq (orIll f.body) fun body =>
      exec p inv (f.retTy tys) (fun v env => value (results f (some o) v env)) body none
        ⟨sc, tys, ents⟩ (fun env => value (results f (some o) .unit env)) := by
  simp [run, value, seq, settled, exec_map]

@[exec_header, exec_header ↓] theorem changed_run (f : Func) (args : List Val) :
    changed (run p inv f tys sc none args) =
      seq (bindParams p inv ⟨sc, tys, []⟩ f.params args) fun params =>
      seq (orIll f.body) fun body =>
      exec p inv (f.retTy tys) (fun v env => changed (results f none v env)) body none
        ⟨sc, tys, params⟩ (fun env => changed (results f none .unit env)) := by
  simp [run, changed, seq, exec_map]

@[exec_header, exec_header ↓] theorem changed_run_some (f : Func) (o : Val) (args : List Val) :
    changed (run p inv f tys sc (some o) args) =
      seq (settled o.fields) fun fields =>
      seq (bindParams p inv ⟨sc, tys, fields⟩ f.params args) fun params =>
      seq (settled (params ++ fields)) fun ents =>
      seq (orIll f.body) fun body =>
      exec p inv (f.retTy tys) (fun v env => changed (results f (some o) v env)) body none
        ⟨sc, tys, ents⟩ (fun env => changed (results f (some o) .unit env)) := by
  simp [run, changed, seq, settled, exec_map]

@[exec_header, exec_header ↓] theorem value_results (f : Func) (self : Option Val) (v : Val) (sc : Scope)
    (tys : List (Nat × TVal)) (ents : List (Nat × Val)) :
    value (results f self v ⟨sc, tys, ents⟩) =
      if f.isCtor then orIll (assemble sc ents)
      else
        match self with
        | some _ => seq (orIll (assemble sc ents)) fun _ => pure v
        | none =>
          match f.params with
          | q :: _ => seq (orIll (ents.lookup q.name)) fun _ => pure v
          | [] => pure v := by
  unfold results
  split
  · simp [value]
  · split
    · simp [value, seq]
    · split <;> simp_all [value, seq]

@[exec_header, exec_header ↓] theorem changed_results (f : Func) (self : Option Val) (v : Val) (sc : Scope)
    (tys : List (Nat × TVal)) (ents : List (Nat × Val)) :
    changed (results f self v ⟨sc, tys, ents⟩) =
      if f.isCtor then orIll (assemble sc ents)
      else
        match self with
        | some _ => orIll (assemble sc ents)
        | none =>
          match f.params with
          | q :: _ => orIll (ents.lookup q.name)
          | [] => pure .unit := by
  unfold results
  split
  · simp [changed]
  · split
    · simp [changed]
    · split <;> simp_all [changed]

/-! ### Objects -/

@[exec_header, exec_header ↓] theorem assemble_raw (T : IntTy) (ents : List (Nat × Val)) :
    assemble ⟨N.«raw_fraction», [.int T]⟩ ents =
      match ents.lookup N.«numerator», ents.lookup N.«denominator» with
      | some (.int A n), some (.int B d) => if A = T ∧ B = T then some (.raw T ⟨n, d⟩) else none
      | _, _ => none := by
  simp [assemble]; rfl

@[exec_header, exec_header ↓] theorem assemble_frac (T : IntTy) (o : Ops) (ents : List (Nat × Val)) :
    assemble ⟨N.«fraction», [.int T, .ops o]⟩ ents =
      match ents.lookup N.«raw_» with
      | some (.raw A r) => if A = T then some (.frac T o r) else none
      | _ => none := by
  simp [assemble]; rfl

@[exec_header, exec_header ↓] theorem assemble_mixed (W F : IntTy) (o : Ops) (ents : List (Nat × Val)) :
    assemble ⟨N.«mixed_number», [.int W, .int F, .ops o]⟩ ents =
      match ents.lookup N.«whole_», ents.lookup N.«fractional_» with
      | some (.int A w), some (.frac B p f) =>
        if A = W ∧ B = F ∧ p = o then some (.mixed W F o ⟨w, f⟩) else none
      | _, _ => none := by
  simp [assemble]; rfl

@[exec_header, exec_header ↓] theorem assemble_nil (c : Nat) (ents : List (Nat × Val)) :
    assemble ⟨c, []⟩ ents = none := rfl

@[exec_header, exec_header ↓] theorem assemble_ops (c : Nat) (o : Ops) (m : ReduceMode)
    (ents : List (Nat × Val)) : assemble ⟨c, [.ops o, .mode m]⟩ ents = none := rfl

attribute [exec_header] Val.fields Option.map_some Option.map_none Option.getD_some Option.getD_none

/-! ### Conversions -/

@[exec_header] theorem toTy_self (T : IntTy) (n : Int) : toTy T T n = pure n := if_pos rfl

@[exec_header] theorem construct_int (T S : IntTy) (n : Int) :
    construct inv (.int T) [.int S n] = Val.int T <$> toTy T S n := by
  unfold toTy; simp only [construct]; split <;> simp

@[exec_header] theorem construct_int_nil (T : IntTy) : construct inv (.int T) [] = pure (.int T 0) := rfl

@[exec_header] theorem construct_frac_nil (T : IntTy) (o : Ops) :
    construct inv (.frac T o) [] =
      value (inv ⟨N.«fraction», [.int T, .ops o]⟩ none N.«fraction» [] []) := rfl

@[exec_header] theorem construct_mixed_nil (W F : IntTy) (o : Ops) :
    construct inv (.mixed W F o) [] =
      value (inv ⟨N.«mixed_number», [.int W, .int F, .ops o]⟩ none N.«mixed_number» [] []) := rfl

@[exec_header] theorem construct_bool (b : Bool) : construct inv .bool [.bool b] = pure (.bool b) := rfl

@[exec_header] theorem construct_mode (m : ReduceMode) :
    construct inv .reduceMode [.mode m] = pure (.mode m) := rfl

@[exec_header] theorem construct_rmode (m : RoundMode) :
    construct inv .roundMode [.rmode m] = pure (.rmode m) := rfl

@[exec_header] theorem construct_raw (T : IntTy) (v : Val) : construct inv (.raw T) [v] =
    if v.type = .raw T then pure v
    else value (inv ⟨N.«raw_fraction», [.int T]⟩ none N.«raw_fraction» [] [v]) := rfl

@[exec_header] theorem construct_frac (T : IntTy) (o : Ops) (v : Val) :
    construct inv (.frac T o) [v] =
      if v.type = .frac T o then pure v
      else value (inv ⟨N.«fraction», [.int T, .ops o]⟩ none N.«fraction» [] [v]) := rfl

@[exec_header] theorem construct_mixed (W F : IntTy) (o : Ops) (v : Val) :
    construct inv (.mixed W F o) [v] =
      if v.type = .mixed W F o then pure v
      else value (inv ⟨N.«mixed_number», [.int W, .int F, .ops o]⟩ none N.«mixed_number» [] [v]) := rfl

@[exec_header] theorem construct_raw_two (T : IntTy) (v w : Val) (l : List Val) :
    construct inv (.raw T) (v :: w :: l) =
      value (inv ⟨N.«raw_fraction», [.int T]⟩ none N.«raw_fraction» [] (v :: w :: l)) := rfl

@[exec_header] theorem construct_frac_two (T : IntTy) (o : Ops) (v w : Val) (l : List Val) :
    construct inv (.frac T o) (v :: w :: l) =
      value (inv ⟨N.«fraction», [.int T, .ops o]⟩ none N.«fraction» [] (v :: w :: l)) := rfl

@[exec_header] theorem construct_mixed_two (W F : IntTy) (o : Ops) (v w : Val) (l : List Val) :
    construct inv (.mixed W F o) (v :: w :: l) =
      value (inv ⟨N.«mixed_number», [.int W, .int F, .ops o]⟩ none N.«mixed_number» []
        (v :: w :: l)) := rfl

@[exec_header] theorem castTo_int (T S : IntTy) (n : Int) :
    castTo inv (.int T) (.int S n) = Val.int T <$> T.conv n := rfl

@[exec_header] theorem castTo_raw (T : IntTy) (v : Val) :
    castTo inv (.raw T) v = construct inv (.raw T) [v] := by cases v <;> rfl

@[exec_header] theorem castTo_frac (T : IntTy) (o : Ops) (v : Val) :
    castTo inv (.frac T o) v = construct inv (.frac T o) [v] := by cases v <;> rfl

@[exec_header] theorem castTo_mixed (W F : IntTy) (o : Ops) (v : Val) :
    castTo inv (.mixed W F o) v = construct inv (.mixed W F o) [v] := by cases v <;> rfl

/-! ### Operators -/

section Binary

variable (A B : IntTy) (x y : Int)

local notation "C" => IntTy.common A B

@[exec_header] theorem binary_add : binary inv .add (.int A x) (.int B y) =
    toTy C A x >>= fun x => toTy C B y >>= fun y => Val.int C <$> IntTy.add C x y := rfl
@[exec_header] theorem binary_sub : binary inv .sub (.int A x) (.int B y) =
    toTy C A x >>= fun x => toTy C B y >>= fun y => Val.int C <$> IntTy.sub C x y := rfl
@[exec_header] theorem binary_mul : binary inv .mul (.int A x) (.int B y) =
    toTy C A x >>= fun x => toTy C B y >>= fun y => Val.int C <$> IntTy.mul C x y := rfl
@[exec_header] theorem binary_div : binary inv .div (.int A x) (.int B y) =
    toTy C A x >>= fun x => toTy C B y >>= fun y => Val.int C <$> IntTy.div C x y := rfl
@[exec_header] theorem binary_mod : binary inv .mod (.int A x) (.int B y) =
    toTy C A x >>= fun x => toTy C B y >>= fun y => Val.int C <$> IntTy.mod C x y := rfl
@[exec_header] theorem binary_eq : binary inv .eq (.int A x) (.int B y) =
    toTy C A x >>= fun x => toTy C B y >>= fun y => pure (.bool (decide (x = y))) := rfl
@[exec_header] theorem binary_ne : binary inv .ne (.int A x) (.int B y) =
    toTy C A x >>= fun x => toTy C B y >>= fun y => pure (.bool (decide (x ≠ y))) := rfl
@[exec_header] theorem binary_lt : binary inv .lt (.int A x) (.int B y) =
    toTy C A x >>= fun x => toTy C B y >>= fun y => pure (.bool (decide (x < y))) := rfl
@[exec_header] theorem binary_le : binary inv .le (.int A x) (.int B y) =
    toTy C A x >>= fun x => toTy C B y >>= fun y => pure (.bool (decide (x ≤ y))) := rfl
@[exec_header] theorem binary_gt : binary inv .gt (.int A x) (.int B y) =
    toTy C A x >>= fun x => toTy C B y >>= fun y => pure (.bool (decide (x > y))) := rfl
@[exec_header] theorem binary_ge : binary inv .ge (.int A x) (.int B y) =
    toTy C A x >>= fun x => toTy C B y >>= fun y => pure (.bool (decide (x ≥ y))) := rfl
@[exec_header] theorem binary_shl : binary inv .shl (.int A x) (.int B y) =
    Val.int A <$> A.shl x y := rfl

end Binary

section Classes

variable (op : BinOp) (T W F : IntTy) (o : Ops) (r : Raw) (m : Mixed) (n : Int) (v : Val)

@[exec_header] theorem binary_raw : binary inv op (.raw T r) v =
    value (inv .global none (opName op) [] [.raw T r, v]) := rfl
@[exec_header] theorem binary_frac : binary inv op (.frac T o r) v =
    value (inv .global none (opName op) [] [.frac T o r, v]) := rfl
@[exec_header] theorem binary_mixed : binary inv op (.mixed W F o m) v =
    value (inv .global none (opName op) [] [.mixed W F o m, v]) := rfl
@[exec_header] theorem binary_int_raw : binary inv op (.int W n) (.raw T r) =
    value (inv .global none (opName op) [] [.int W n, .raw T r]) := rfl
@[exec_header] theorem binary_int_frac : binary inv op (.int W n) (.frac T o r) =
    value (inv .global none (opName op) [] [.int W n, .frac T o r]) := rfl
@[exec_header] theorem binary_int_mixed : binary inv op (.int T n) (.mixed W F o m) =
    value (inv .global none (opName op) [] [.int T n, .mixed W F o m]) := rfl
@[exec_header] theorem unary_int_neg : unary inv .neg (.int T n) = Val.int T <$> T.neg n := rfl
@[exec_header] theorem unary_int_pos : unary inv .pos (.int T n) = pure (.int T n) := rfl
@[exec_header] theorem unary_not (b : Bool) : unary inv .not (.bool b) = pure (.bool !b) := rfl
@[exec_header] theorem unary_raw_neg : unary inv .neg (.raw T r) =
    value (inv .global none N.«operator-» [] [.raw T r]) := rfl
@[exec_header] theorem unary_raw_pos : unary inv .pos (.raw T r) =
    value (inv .global none N.«operator+» [] [.raw T r]) := rfl
@[exec_header] theorem unary_frac_neg : unary inv .neg (.frac T o r) =
    value (inv .global none N.«operator-» [] [.frac T o r]) := rfl
@[exec_header] theorem unary_frac_pos : unary inv .pos (.frac T o r) =
    value (inv .global none N.«operator+» [] [.frac T o r]) := rfl
@[exec_header] theorem unary_mixed_neg : unary inv .neg (.mixed W F o m) =
    value (inv .global none N.«operator-» [] [.mixed W F o m]) := rfl
@[exec_header] theorem unary_mixed_pos : unary inv .pos (.mixed W F o m) =
    value (inv .global none N.«operator+» [] [.mixed W F o m]) := rfl

@[exec_header] theorem stdCall_gcd (x y : Int) :
    stdCall N.«gcd» [.int T x, .int T y] = Val.int T <$> T.gcd x y := by simp [stdCall]
@[exec_header] theorem stdCall_lcm (x y : Int) :
    stdCall N.«lcm» [.int T x, .int T y] = Val.int T <$> T.lcm x y := by simp [stdCall]
@[exec_header] theorem isSame_two (s t : TVal) :
    isSame N.«is_same_v» [s, t] = pure (.bool (decide (s = t))) := by simp [isSame]

end Classes

/-! ### Expressions -/

@[exec_header] theorem evalVar_plain (x : Nat) : evalVar ⟨sc, tys, ents⟩ 0 x =
    match ents.lookup x with
    | some v => some v
    | none =>
      match tys.lookup x with
      | some t => t.value
      | none => boolLit x := rfl

@[exec_header] theorem evalVar_reduce (x : Nat) :
    evalVar env N.«reduce_mode» x = enumerator N.«reduce_mode» x := by simp [evalVar]

@[exec_header] theorem evalVar_round (x : Nat) :
    evalVar env N.«round_mode» x = enumerator N.«round_mode» x := by simp [evalVar]

attribute [exec_header] enumerator TVal.value boolLit

/-- A call by a name that may mean a type. -/
def callName (p : Program) (inv : Invoke) (env : Env) (f : Nat) (ts : List TVal) (args : List Val) :
    Option TVal → Res Val
  | some t =>
    match args with
    | [v] => castTo inv t v
    | args => construct inv t args
  | none =>
    if (p.find env.scope.cls f).isEmpty then value (inv .global none f ts args)
    else value (inv env.scope (assemble env.scope env.ents) f ts args)

@[congr] theorem callName_congr {f : Nat} {ts : List TVal} {args : List Val} {t t' : Option TVal}
    (h : t = t') : callName p inv env f ts args t = callName p inv env f ts args t' := by rw [h]

@[exec_header] theorem callName_nil (f : Nat) (ts : List TVal) (t : TVal) :
    callName p inv env f ts [] (some t) = construct inv t [] := rfl
@[exec_header] theorem callName_one (f : Nat) (ts : List TVal) (t : TVal) (v : Val) :
    callName p inv env f ts [v] (some t) = castTo inv t v := rfl
@[exec_header] theorem callName_two (f : Nat) (ts : List TVal) (t : TVal) (v w : Val) (l : List Val) :
    callName p inv env f ts (v :: w :: l) (some t) = construct inv t (v :: w :: l) := rfl
@[exec_header] theorem callName_none (f : Nat) (ts : List TVal) (args : List Val) :
    callName p inv ⟨sc, tys, ents⟩ f ts args none =
      if (p.find sc.cls f).isEmpty then value (inv .global none f ts args)
      else value (inv sc (assemble sc ents) f ts args) := rfl

@[exec_header] theorem call_std_nil (f : Nat) (ts : List TVal) :
    call p inv env N.«std» f ts [] = isSame f ts := by simp [call]
@[exec_header] theorem call_std_cons (f : Nat) (ts : List TVal) (v : Val) (l : List Val) :
    call p inv env N.«std» f ts (v :: l) = stdCall f (v :: l) := by simp [call]
@[exec_header] theorem call_plain (f : Nat) (args : List Val) :
    call p inv ⟨sc, tys, ents⟩ 0 f [] args = callName p inv ⟨sc, tys, ents⟩ f [] args (tys.lookup f) := rfl
@[exec_header] theorem call_template (f : Nat) (t : TVal) (ts : List TVal) (args : List Val) :
    call p inv ⟨sc, tys, ents⟩ 0 f (t :: ts) args =
      callName p inv ⟨sc, tys, ents⟩ f (t :: ts) args (applyTy f (t :: ts)) := rfl
@[exec_header] theorem call_math (f : Nat) (ts : List TVal) (args : List Val) :
    call p inv env N.«math_utilities» f ts args = value (inv ⟨N.«math_utilities», []⟩ none f ts args) := by
  simp [call, qualified]

/-- The scope of a policy. -/
def policyScope : Option TVal → Option Scope
  | some (.ops o) => some (opsScope o)
  | _ => none

@[exec_header] theorem policyScope_ops (o : Ops) : policyScope (some (.ops o)) = some (opsScope o) := rfl

theorem call_policy (q f : Nat) (ts : List TVal) (args : List Val) (h : q ≠ N.«std») (h0 : q ≠ 0)
    (hm : q ≠ N.«math_utilities») :
    call p inv ⟨sc, tys, ents⟩ q f ts args =
      seq (orIll (policyScope (tys.lookup q))) fun sc => value (inv sc none f ts args) := by
  simp only [call, h, h0, hm, if_false, qualified, policyScope]
  split <;> split <;> simp_all [orIll, seq, illFormed]

@[exec_header] theorem call_Ops (f : Nat) (ts : List TVal) (args : List Val) :
    call p inv ⟨sc, tys, ents⟩ N.«Ops» f ts args =
      seq (orIll (policyScope (tys.lookup N.«Ops»))) fun sc => value (inv sc none f ts args) :=
  call_policy _ _ _ _ (by decide) (by decide) (by decide)

@[exec_header, exec_header ↓] theorem eval_num (n : Nat) : eval p inv env (.num n) = pure (.int i32 n) := by
  simp [eval]
@[exec_header, exec_header ↓] theorem eval_var (q x : Nat) :
    eval p inv env (.var q x) = orIll (evalVar env q x) := by simp [eval]
@[exec_header, exec_header ↓] theorem eval_mem (e : Expr) (x : Nat) : eval p inv env (.mem e x) =
    seq (eval p inv env e) fun v => orIll (v.fields.lookup x) := by simp [eval, seq]
@[exec_header, exec_header ↓] theorem eval_method (e : Expr) (f : Nat) : eval p inv env (.method e f) =
    seq (eval p inv env e) fun v => value (inv v.type.scope (some v) f [] []) := by simp [eval, seq]
@[exec_header, exec_header ↓] theorem eval_call (q f : Nat) (ts : List Ty) (args : Args) :
    eval p inv ⟨sc, tys, ents⟩ (.call q f ts args) =
      seq (orIll (evalTys tys ts)) fun ts =>
      seq (evalArgs p inv ⟨sc, tys, ents⟩ args) fun as => call p inv ⟨sc, tys, ents⟩ q f ts as := by
  simp [eval, seq]
@[exec_header, exec_header ↓] theorem eval_cast (t : Ty) (e : Expr) : eval p inv ⟨sc, tys, ents⟩ (.cast t e) =
    seq (orIll (evalTy tys t)) fun t => seq (eval p inv ⟨sc, tys, ents⟩ e) fun v => castTo inv t v := by
  simp [eval, seq]
@[exec_header, exec_header ↓] theorem eval_un (op : UnOp) (e : Expr) : eval p inv env (.un op e) =
    seq (eval p inv env e) fun v => unary inv op v := by simp [eval, seq]

section EvalBin

variable (a b c : Expr)

@[exec_header, exec_header ↓] theorem eval_add : eval p inv env (.bin .add a b) =
    seq (eval p inv env a) fun x => seq (eval p inv env b) fun y => binary inv .add x y := by
  simp [eval, seq]
@[exec_header, exec_header ↓] theorem eval_sub : eval p inv env (.bin .sub a b) =
    seq (eval p inv env a) fun x => seq (eval p inv env b) fun y => binary inv .sub x y := by
  simp [eval, seq]
@[exec_header, exec_header ↓] theorem eval_mul : eval p inv env (.bin .mul a b) =
    seq (eval p inv env a) fun x => seq (eval p inv env b) fun y => binary inv .mul x y := by
  simp [eval, seq]
@[exec_header, exec_header ↓] theorem eval_div : eval p inv env (.bin .div a b) =
    seq (eval p inv env a) fun x => seq (eval p inv env b) fun y => binary inv .div x y := by
  simp [eval, seq]
@[exec_header, exec_header ↓] theorem eval_mod : eval p inv env (.bin .mod a b) =
    seq (eval p inv env a) fun x => seq (eval p inv env b) fun y => binary inv .mod x y := by
  simp [eval, seq]
@[exec_header, exec_header ↓] theorem eval_shl : eval p inv env (.bin .shl a b) =
    seq (eval p inv env a) fun x => seq (eval p inv env b) fun y => binary inv .shl x y := by
  simp [eval, seq]
@[exec_header, exec_header ↓] theorem eval_eq : eval p inv env (.bin .eq a b) =
    seq (eval p inv env a) fun x => seq (eval p inv env b) fun y => binary inv .eq x y := by
  simp [eval, seq]
@[exec_header, exec_header ↓] theorem eval_ne : eval p inv env (.bin .ne a b) =
    seq (eval p inv env a) fun x => seq (eval p inv env b) fun y => binary inv .ne x y := by
  simp [eval, seq]
@[exec_header, exec_header ↓] theorem eval_lt : eval p inv env (.bin .lt a b) =
    seq (eval p inv env a) fun x => seq (eval p inv env b) fun y => binary inv .lt x y := by
  simp [eval, seq]
@[exec_header, exec_header ↓] theorem eval_le : eval p inv env (.bin .le a b) =
    seq (eval p inv env a) fun x => seq (eval p inv env b) fun y => binary inv .le x y := by
  simp [eval, seq]
@[exec_header, exec_header ↓] theorem eval_gt : eval p inv env (.bin .gt a b) =
    seq (eval p inv env a) fun x => seq (eval p inv env b) fun y => binary inv .gt x y := by
  simp [eval, seq]
@[exec_header, exec_header ↓] theorem eval_ge : eval p inv env (.bin .ge a b) =
    seq (eval p inv env a) fun x => seq (eval p inv env b) fun y => binary inv .ge x y := by
  simp [eval, seq]

/-- Goes on according to a truth value. -/
def branch {α : Type} (v : Val) (a b : Res α) : Res α :=
  match v with
  | .bool x => if x then a else b
  | _ => illFormed

@[exec_header, exec_header ↓] theorem branch_bool {α : Type} (x : Bool) (a b : Res α) :
    branch (.bool x) a b = if x then a else b := rfl

@[exec_header, exec_header ↓] theorem eval_and : eval p inv env (.bin .and a b) =
    seq (eval p inv env a) fun x => branch x (eval p inv env b) (pure (.bool false)) := by
  simp only [eval, seq]; rfl
@[exec_header, exec_header ↓] theorem eval_or : eval p inv env (.bin .or a b) =
    seq (eval p inv env a) fun x => branch x (pure (.bool true)) (eval p inv env b) := by
  simp only [eval, seq]; rfl
@[exec_header, exec_header ↓] theorem eval_cond : eval p inv env (.cond c a b) =
    seq (eval p inv env c) fun x => branch x (eval p inv env a) (eval p inv env b) := by
  simp only [eval, seq]; rfl

end EvalBin

@[exec_header, exec_header ↓] theorem evalArgs_nil : evalArgs p inv env .nil = pure [] := by simp [evalArgs]
@[exec_header, exec_header ↓] theorem evalArgs_cons (e : Expr) (rest : Args) : evalArgs p inv env (.cons e rest) =
    seq (eval p inv env e) fun v => seq (evalArgs p inv env rest) fun vs => pure (v :: vs) := by
  simp [evalArgs, seq]

/-! ### Statements -/

section Statements

variable {ret : Option TVal} {α : Type} {g : Val → Env → Res α} {k : Env → Res α} (e : Expr) (s next a b : Stmt) (x f : Nat)
  (v : Val) (args : Args)

@[exec_header] theorem returned_some (t : TVal) : returned inv (some t) v = construct inv t [v] := rfl
@[exec_header] theorem returned_none : returned inv none v = pure v := rfl

@[exec_header, exec_header ↓] theorem exec_nil (seek : Option Val) :
    exec p inv ret g .nil seek env k = k env := by simp [exec]
@[exec_header, exec_header ↓] theorem exec_case_some : exec p inv ret g (.case e next) (some v) env k =
    seq (eval p inv env e) fun l => exec p inv ret g next (if l = v then none else some v) env k := by
  simp [exec, seq]
@[exec_header, exec_header ↓] theorem exec_case_none : exec p inv ret g (.case e next) none env k =
    exec p inv ret g next none env k := by simp [exec]
@[exec_header, exec_header ↓] theorem exec_ret : exec p inv ret g (.ret e next) none env k =
    seq (eval p inv env e) fun v => seq (returned inv ret v) fun r => g r env := by
  simp [exec, seq]
@[exec_header, exec_header ↓] theorem exec_retBrace : exec p inv ret g (.retBrace args next) none env k =
    seq (evalArgs p inv env args) fun vs => seq (orIll ret) fun t =>
    seq (construct inv t vs) fun r => g r env := by
  simp [exec, seq]
@[exec_header, exec_header ↓] theorem exec_retAssign :
    exec p inv ret g (.retAssign x e next) none ⟨sc, tys, ents⟩ k =
    seq (eval p inv ⟨sc, tys, ents⟩ e) fun v => seq (orIll (ents.lookup x)) fun o =>
    seq (construct inv o.type [v]) fun v => seq (returned inv ret v) fun r =>
    g r ⟨sc, tys, (x, v) :: ents⟩ := by
  simp [exec, seq]
@[exec_header, exec_header ↓] theorem exec_using (t : Ty) :
    exec p inv ret g (.using x t next) none ⟨sc, tys, ents⟩ k =
    seq (orIll (evalTy tys t)) fun t => exec p inv ret g next none ⟨sc, (x, t) :: tys, ents⟩ k := by
  simp [exec, seq]
@[exec_header, exec_header ↓] theorem exec_decl :
    exec p inv ret g (.decl x e next) none ⟨sc, tys, ents⟩ k =
    seq (eval p inv ⟨sc, tys, ents⟩ e) fun v =>
    exec p inv ret g next none ⟨sc, tys, (x, v) :: ents⟩ k := by
  simp [exec, seq]
@[exec_header, exec_header ↓] theorem exec_ite : exec p inv ret g (.ite e a b next) none env k =
    seq (eval p inv env e) fun x =>
    branch x (exec p inv ret g a none env (fun env => exec p inv ret g next none env k))
      (exec p inv ret g b none env (fun env => exec p inv ret g next none env k)) := by
  simp only [exec, seq]; rfl
@[exec_header, exec_header ↓] theorem exec_switch : exec p inv ret g (.switch e s next) none env k =
    seq (eval p inv env e) fun v =>
    exec p inv ret g s (some v) env (fun env => exec p inv ret g next none env k) := by
  simp [exec, seq]
@[exec_header, exec_header ↓] theorem exec_assign :
    exec p inv ret g (.assign x e next) none ⟨sc, tys, ents⟩ k =
    seq (eval p inv ⟨sc, tys, ents⟩ e) fun v => seq (orIll (ents.lookup x)) fun o =>
    seq (construct inv o.type [v]) fun v =>
    exec p inv ret g next none ⟨sc, tys, (x, v) :: ents⟩ k := by
  simp [exec, seq]

/-- The variable after a compound assignment. -/
def updated (inv : Invoke) (op : BinOp) (o v : Val) : Res Val :=
  match o with
  | .int T n => do
    let w ← binary inv op (.int T n) v
    construct inv (.int T) [w]
  | o => changed (inv .global none (updateName op) [] [o, v])

@[exec_header] theorem updated_int (op : BinOp) (T : IntTy) (n : Int) (v : Val) :
    updated inv op (.int T n) v =
      seq (binary inv op (.int T n) v) fun w => construct inv (.int T) [w] := rfl
@[exec_header] theorem updated_frac (op : BinOp) (T : IntTy) (o : Ops) (r : Raw) (v : Val) :
    updated inv op (.frac T o r) v =
      changed (inv .global none (updateName op) [] [.frac T o r, v]) := rfl
@[exec_header] theorem updated_mixed (op : BinOp) (W F : IntTy) (o : Ops) (m : Mixed) (v : Val) :
    updated inv op (.mixed W F o m) v =
      changed (inv .global none (updateName op) [] [.mixed W F o m, v]) := rfl

@[exec_header, exec_header ↓] theorem exec_update (op : BinOp) :
    exec p inv ret g (.update x op e next) none ⟨sc, tys, ents⟩ k =
    seq (eval p inv ⟨sc, tys, ents⟩ e) fun v => seq (orIll (ents.lookup x)) fun o =>
    seq (updated inv op o v) fun w =>
    exec p inv ret g next none ⟨sc, tys, (x, w) :: ents⟩ k := by
  simp only [exec, seq]
  congr 1; funext v; congr 1; funext o
  cases o <;> simp [updated, Val.type]
@[exec_header, exec_header ↓] theorem exec_callSelf :
    exec p inv ret g (.callSelf f next) none ⟨sc, tys, ents⟩ k =
    seq (orIll (assemble sc ents)) fun o => seq (changed (inv sc (some o) f [] [])) fun w =>
    seq (settled (w.fields ++ ents)) fun ents =>
    exec p inv ret g next none ⟨sc, tys, ents⟩ k := by
  simp [exec, seq, settled, Env.withFields]
@[exec_header, exec_header ↓] theorem exec_init :
    exec p inv ret g (.init x args next) none ⟨sc, tys, ents⟩ k =
    seq (evalArgs p inv ⟨sc, tys, ents⟩ args) fun vs =>
    if x = sc.cls then
      seq (orIll (applyTy sc.cls sc.targs)) fun t => seq (construct inv t vs) fun w =>
      seq (settled (w.fields ++ ents)) fun ents =>
      exec p inv ret g next none ⟨sc, tys, ents⟩ k
    else
      seq (orIll (fieldTy p ⟨sc, tys, ents⟩ x)) fun t => seq (construct inv t vs) fun w =>
      exec p inv ret g next none ⟨sc, tys, (x, w) :: ents⟩ k := by
  simp [exec, seq, settled, Env.withFields, selfTy]
@[exec_header, exec_header ↓] theorem exec_ret_seek : exec p inv ret g (.ret e next) (some v) env k =
    exec p inv ret g next (some v) env k := by simp [exec]
@[exec_header, exec_header ↓] theorem exec_assign_seek :
    exec p inv ret g (.assign x e next) (some v) env k = exec p inv ret g next (some v) env k := by
  simp [exec]

@[exec_header, exec_header ↓] theorem exec_switch_seek :
    exec p inv ret g (.switch e s next) (some v) env k = exec p inv ret g next (some v) env k := by
  simp [exec]

end Statements

attribute [exec_header] fieldTy List.find?_cons

/-! ### Parameters -/

section Params

variable (t : Ty) (x : Nat) (d : Option Expr) (v : Val) (vs : List Val) (qs : List Param)

@[exec_header, exec_header ↓] theorem bindParams_nil (vs : List Val) : bindParams p inv env [] vs = pure [] := by
  simp [bindParams]

@[exec_header, exec_header ↓] theorem bindParams_cons :
    bindParams p inv ⟨sc, tys, ents⟩ (⟨t, x, d⟩ :: qs) (v :: vs) =
    seq (orIll (evalTy tys t)) fun t => seq (construct inv t [v]) fun v =>
    seq (bindParams p inv ⟨sc, tys, ents⟩ qs vs) fun rest => pure ((x, v) :: rest) := by
  simp [bindParams, bindParam, seq]

@[exec_header, exec_header ↓] theorem bindParams_braces :
    bindParams p inv ⟨sc, tys, ents⟩ (⟨t, x, some .braces⟩ :: qs) [] =
    seq (orIll (evalTy tys t)) fun t => seq (construct inv t []) fun v =>
    seq (bindParams p inv ⟨sc, tys, ents⟩ qs []) fun rest => pure ((x, v) :: rest) := by
  simp [bindParams, bindParam, seq]

@[exec_header, exec_header ↓] theorem bindParams_num (a : Nat) :
    bindParams p inv ⟨sc, tys, ents⟩ (⟨t, x, some (.num a)⟩ :: qs) [] =
    seq (orIll (evalTy tys t)) fun t => seq (construct inv t [.int i32 a]) fun v =>
    seq (bindParams p inv ⟨sc, tys, ents⟩ qs []) fun rest => pure ((x, v) :: rest) := by
  simp [bindParams, bindParam, eval, seq]

@[exec_header, exec_header ↓] theorem bindParams_var (a b : Nat) :
    bindParams p inv ⟨sc, tys, ents⟩ (⟨t, x, some (.var a b)⟩ :: qs) [] =
    seq (orIll (evalTy tys t)) fun t => seq (eval p inv ⟨sc, tys, ents⟩ (.var a b)) fun v =>
    seq (construct inv t [v]) fun v =>
    seq (bindParams p inv ⟨sc, tys, ents⟩ qs []) fun rest => pure ((x, v) :: rest) := by
  simp [bindParams, bindParam, seq]

@[exec_header, exec_header ↓] theorem bindParams_call (a b : Nat) (ts : List Ty) (args : Args) :
    bindParams p inv ⟨sc, tys, ents⟩ (⟨t, x, some (.call a b ts args)⟩ :: qs) [] =
    seq (orIll (evalTy tys t)) fun t => seq (eval p inv ⟨sc, tys, ents⟩ (.call a b ts args)) fun v =>
    seq (construct inv t [v]) fun v =>
    seq (bindParams p inv ⟨sc, tys, ents⟩ qs []) fun rest => pure ((x, v) :: rest) := by
  simp [bindParams, bindParam, seq]

end Params

end Rules

section Literals

variable (T : IntTy)

@[exec_header] theorem conv_zero : T.conv 0 = pure 0 := by simp [IntTy.conv]; rfl
@[exec_header] theorem conv_one : T.conv 1 = pure 1 := by simp [IntTy.conv]; rfl
@[exec_header] theorem conv_two : T.conv 2 = pure 2 := by simp [IntTy.conv]; rfl

end Literals

attribute [exec_header] IntTy.common_self

theorem invoke_succ (p : Program) (n : Nat) (sc : Scope) (self : Option Val) (f : Nat)
    (ts : List TVal) (args : List Val) :
    invoke p (n + 1) sc self f ts args =
      if f = sc.cls ∧ args = [] then do
        let o ← defaultObject p (invoke p n) sc
        return (o, o)
      else
      match choose p sc ts (args.map Val.type) (constFirst (p.find sc.cls f)) with
      | some (g, tys) => run p (invoke p n) g tys sc self args
      | none => illFormed := rfl

/-- Unfolds one call. -/
macro "step" n:ident : tactic => `(tactic|
  (obtain ⟨m, hm⟩ : ∃ m, $n = m + 1 := ⟨$n - 1, by omega⟩
   subst hm
   rw [invoke_succ]
   simp [pick, opsScope]))

/-- Runs the body of a function; the rules given unfold the model. -/
macro "go" "[" ls:Lean.Parser.Tactic.simpLemma,* "]" : tactic =>
  `(tactic| simp (disch := omega) only [exec_header, ↓stepSeq, Nat.reduceBEq, Nat.reduceEqDiff,
    reduceIte, reduceCtorEq, Nat.cast_ofNat, Nat.cast_zero, Nat.cast_one, $ls,*])

/-- Compares what is left, case by case. -/
macro "cases_agree" : tactic => `(tactic|
  (try simp only [bne, beq_eq_decide, Bool.or_eq_true, Bool.and_eq_true, Bool.not_eq_true',
     decide_eq_false_iff_not, decide_eq_true_eq, ne_eq, decide_not]
   all_goals (repeat' split) <;>
     first
     | (simp only [*, decide_true, decide_false, Bool.and_true, Bool.true_and, Bool.and_false,
        Bool.false_and, Bool.or_true, Bool.true_or, Bool.or_false, Bool.false_or, pure_bind,
        bind_assoc, Bool.not_true, Bool.not_false, not_true_eq_false, not_false_eq_true]; done)
     | (exfalso; omega)
     | simp_all))

end Ieme.Header
