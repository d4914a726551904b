import Verif.Spec.Policy
import Verif.Model.PolicyState

/-!
# What a policy with hidden state sees

The calls that reach a policy, policies that only look on, and what a flag has to promise.  Of the
model only the data types, the functions of stateless policies and the interface `SPolicy` are used.
-/

namespace Ieme

/-- The members of a policy. -/
inductive Member where
  | negate
  | arith (op : ArithOp)
  | cmp (op : CmpOp)
deriving DecidableEq

/-- A call of a policy. -/
inductive Call where
  | negate (T : IntTy) (v : Raw)
  | arith (T : IntTy) (op : ArithOp) (a : Args)
  | cmp (T : IntTy) (op : CmpOp) (a : Args)

/-- The member that is called. -/
def Call.member : Call → Member
  | .negate _ _ => .negate
  | .arith _ op _ => .arith op
  | .cmp _ op _ => .cmp op

/-- `P` answers like the stateless policy `p` and only keeps a record: each call changes the state
by `note`. -/
structure SPolicy.Observes {σ : Type} (P : SPolicy σ) (p : Policy) (note : σ → Call → σ) : Prop where
  negate : ∀ T v s, P.negate T v s = do return (← p.negate T v, note s (.negate T v))
  arith : ∀ T op a s, P.arith T op a s = do return (← p.arith T op a, note s (.arith T op a))
  cmp : ∀ T op a s, P.cmp T op a s = do return (← p.cmp T op a, note s (.cmp T op a))

/-- Whatever policy looks on while the function `f` runs over `p`, it sees the calls `cs` in this
order, and the outcome is `y`. -/
def Policy.Makes {α : Type} (p : Policy) (f : ∀ σ : Type, SPolicy σ → Act σ α) (y : Res α)
    (cs : List Call) : Prop :=
  ∀ (σ : Type) (P : SPolicy σ) (note : σ → Call → σ), P.Observes p note →
    ∀ s, f σ P s = do return (← y, cs.foldl note s)

/-- Whatever policy looks on while the function `f` runs over `p`, it sees the same calls, whose
members are as described if there is a result, and the outcome is `y`. -/
def Policy.Calls {α : Type} (p : Policy) (f : ∀ σ : Type, SPolicy σ → Act σ α) (y : Res α)
    (are : List Member → Prop) : Prop :=
  ∃ cs, p.Makes f y cs ∧ (y.Finishes → are (cs.map Call.member))

/-! ## Any order -/

/-- The third list consists of the first two, each in its order. -/
inductive Shuffle {α : Type} : List α → List α → List α → Prop
  | nil : Shuffle [] [] []
  | left {x a b c} : Shuffle a b c → Shuffle (x :: a) b (x :: c)
  | right {x a b c} : Shuffle a b c → Shuffle a (x :: b) (x :: c)

/-- In some order, evaluating the expression over `p` makes these calls and gives this result; with
whether something wrapped.  Each operator is called behind its operands. -/
inductive Policy.Traced (p : Policy) (T : IntTy) : Expr → Raw → Bool → List Call → Prop
  | lit {f} : Traced p T (.lit f) f false []
  | neg {e v r w w' cs} : Traced p T e v w cs → p.negate T v = .ok r w' →
      Traced p T (.neg e) r (w || w') (cs ++ [.negate T v])
  | pos {e v w cs} : Traced p T e v w cs → Traced p T (.pos e) v w cs
  | ff {op l r a b c w w' w'' cs ds es} : Traced p T l a w cs → Traced p T r b w' ds →
      Shuffle cs ds es → p.arith T op (.ff a b) = .ok c w'' →
      Traced p T (.ff op l r) c (w || w' || w'') (es ++ [.arith T op (.ff a b)])
  | fr {op e n a c w w' cs} : Traced p T e a w cs → p.arith T op (.fr a n) = .ok c w' →
      Traced p T (.fr op e n) c (w || w') (cs ++ [.arith T op (.fr a n)])
  | rf {op e n a c w w' cs} : Traced p T e a w cs → p.arith T op (.rf n a) = .ok c w' →
      Traced p T (.rf op n e) c (w || w') (cs ++ [.arith T op (.rf n a)])

/-- The member that a compound assignment calls. -/
def Assign.member : Assign → Member
  | .frac op _ => .arith op
  | .int op _ => .arith op

/-- The operators of an expression that call the policy, from left to right. -/
def Expr.members : Expr → List Member
  | .lit _ => []
  | .neg e => e.members ++ [.negate]
  | .pos e => e.members
  | .ff op l r => l.members ++ r.members ++ [.arith op]
  | .fr op e _ => e.members ++ [.arith op]
  | .rf op _ e => e.members ++ [.arith op]

/-- The number of operators, with unary plus. -/
def Expr.operators : Expr → ℕ
  | .lit _ => 0
  | .neg e => e.operators + 1
  | .pos e => e.operators + 1
  | .ff _ l r => l.operators + r.operators + 1
  | .fr _ e _ => e.operators + 1
  | .rf _ _ e => e.operators + 1

/-! ## Flags -/

/-- A state is `bad` once a result was not exact, and stays so. -/
structure SPolicy.Flags {σ : Type} (P : SPolicy σ) (bad : σ → Prop) : Prop where
  negate : ∀ {T v s r s' w}, P.negate T v s = .ok (r, s') w → ¬ bad s' →
    ¬ bad s ∧ ∀ x, v.InRange T → Denotes v x → r.InRange T ∧ Denotes r (-x)
  arith : ∀ {T op a s r s' w}, P.arith T op a s = .ok (r, s') w → ¬ bad s' →
    ¬ bad s ∧ ∀ x y q, a.InRange T → a.Denote x y → op.value x y = some q →
      r.InRange T ∧ Denotes r q

/-- A policy that a user might write: raise a flag when something wraps, which the policy `p` does
silently.  It is not part of the library. -/
def Policy.flagging (p : Policy) : SPolicy Bool where
  negate T v s := match p.negate T v with
    | .ok r w => .ok (r, s || w) false
    | .fault k => .fault k
  arith T op a s := match p.arith T op a with
    | .ok r w => .ok (r, s || w) false
    | .fault k => .fault k
  cmp T op a s := match p.cmp T op a with
    | .ok r w => .ok (r, s || w) false
    | .fault k => .fault k

/-- A policy that a user might write: count the calls of `p`.  It is not part of the library. -/
def Policy.counting (p : Policy) : SPolicy ℕ where
  negate T v s := do return (← p.negate T v, s + 1)
  arith T op a s := do return (← p.arith T op a, s + 1)
  cmp T op a s := do return (← p.cmp T op a, s + 1)

/-- A policy that a user might write: keep the list of all calls of `p`.  It is not part of the
library. -/
def Policy.logging (p : Policy) : SPolicy (List Call) where
  negate T v s := do return (← p.negate T v, s ++ [.negate T v])
  arith T op a s := do return (← p.arith T op a, s ++ [.arith T op a])
  cmp T op a s := do return (← p.cmp T op a, s ++ [.cmp T op a])

/-- Wrapped in `reduced_input` (`true`) or `reduced_output` (`false`) any number of times. -/
def SPolicy.wrap {σ : Type} (P : SPolicy σ) : List (Bool × ReduceMode) → SPolicy σ
  | [] => P
  | (true, mode) :: ws => (P.wrap ws).reducedInput mode
  | (false, mode) :: ws => (P.wrap ws).reducedOutput mode

@[inherit_doc SPolicy.wrap] def Policy.wrap (p : Policy) : List (Bool × ReduceMode) → Policy
  | [] => p
  | (true, mode) :: ws => (p.wrap ws).reducedInput mode
  | (false, mode) :: ws => (p.wrap ws).reducedOutput mode

end Ieme
