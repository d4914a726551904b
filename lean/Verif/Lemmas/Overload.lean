import Verif.Spec.Overload
import Verif.Lemmas.Range

/-!
# Lemmas about overload resolution
-/

namespace Ieme.Overload

variable {L R W F W' F' : IntTy} {o o' : Ops} {s : Bool}

/-- Viability in terms of the types, for all pairs of types. -/
theorem viable_frac_frac (f : Fn) : f.viable (.frac L o) (.frac R o') =
    match f with
    | .fracFrac => decide (o = o')
    | .fracRep | .repFrac => true
    | .fracDeleted => decide (o ≠ o')
    | _ => false := by
  cases f <;> simp [Fn.viable, Fn.deduce, Fn.params, Param.deduce, Env.unify, Ty.head, Fn.enabled]
  by_cases h : o = o' <;> simp [h]

theorem viable_frac_int (f : Fn) : f.viable (.frac L o) (.int R) = decide (f = .fracRep) := by
  cases f <;> simp [Fn.viable, Fn.deduce, Fn.params, Param.deduce, Env.unify, Ty.head, Fn.enabled]

theorem viable_int_frac (f : Fn) : f.viable (.int L) (.frac R o) = decide (f = .repFrac) := by
  cases f <;> simp [Fn.viable, Fn.deduce, Fn.params, Param.deduce, Env.unify, Ty.head, Fn.enabled]

theorem viable_mixed_mixed (f : Fn) : f.viable (.mixed W F o) (.mixed W' F' o') =
    match f with
    | .mixMix => decide (o = o')
    | .mixRep | .repMix => true
    | _ => false := by
  cases f <;> simp [Fn.viable, Fn.deduce, Fn.params, Param.deduce, Env.unify, Ty.head, Fn.enabled]
  by_cases h : o = o' <;> simp [h]

theorem viable_mixed_frac (f : Fn) : f.viable (.mixed W F o) (.frac R o') =
    match f with
    | .mixFrac => decide (o = o')
    | .mixRep | .repFrac => true
    | _ => false := by
  cases f <;> simp [Fn.viable, Fn.deduce, Fn.params, Param.deduce, Env.unify, Ty.head, Fn.enabled]
  by_cases h : o = o' <;> simp [h]

theorem viable_frac_mixed (f : Fn) : f.viable (.frac R o) (.mixed W F o') =
    match f with
    | .fracMix => decide (o = o')
    | .fracRep | .repMix => true
    | _ => false := by
  cases f <;> simp [Fn.viable, Fn.deduce, Fn.params, Param.deduce, Env.unify, Ty.head, Fn.enabled]
  by_cases h : o = o' <;> simp [h]

theorem viable_mixed_int (f : Fn) : f.viable (.mixed W F o) (.int R) = decide (f = .mixRep) := by
  cases f <;> simp [Fn.viable, Fn.deduce, Fn.params, Param.deduce, Env.unify, Ty.head, Fn.enabled]

theorem viable_int_mixed (f : Fn) : f.viable (.int R) (.mixed W F o) = decide (f = .repMix) := by
  cases f <;> simp [Fn.viable, Fn.deduce, Fn.params, Param.deduce, Env.unify, Ty.head, Fn.enabled]

theorem viable_frac_lit (f : Fn) : f.viable (.frac L o) (.lit s o') =
    match f with
    | .fracLit => decide (o = o')
    | .fracRep | .repLit => true
    | _ => false := by
  cases f <;> simp [Fn.viable, Fn.deduce, Fn.params, Param.deduce, Env.unify, Ty.head, Fn.enabled]
  by_cases h : o = o' <;> simp [h]

theorem viable_lit_frac (f : Fn) : f.viable (.lit s o) (.frac R o') = decide (f = .repFrac) := by
  cases f <;> simp [Fn.viable, Fn.deduce, Fn.params, Param.deduce, Env.unify, Ty.head, Fn.enabled]

theorem viable_int_lit (f : Fn) : f.viable (.int L) (.lit s o) = decide (f = .repLit) := by
  cases f <;> simp [Fn.viable, Fn.deduce, Fn.params, Param.deduce, Env.unify, Ty.head, Fn.enabled]

theorem viable_lit_int (f : Fn) : f.viable (.lit s o) (.int L) = false := by
  cases f <;> simp [Fn.viable, Fn.deduce, Fn.params, Param.deduce, Env.unify, Ty.head, Fn.enabled]

theorem viable_lit_lit {s' : Bool} (f : Fn) :
    f.viable (.lit s o) (.lit s' o') = decide (f = .repLit) := by
  cases f <;> simp [Fn.viable, Fn.deduce, Fn.params, Param.deduce, Env.unify, Ty.head, Fn.enabled]

theorem viable_mixed_lit (f : Fn) : f.viable (.mixed W F o) (.lit s o') =
    match f with
    | .mixRep | .repLit => true
    | _ => false := by
  cases f <;> simp [Fn.viable, Fn.deduce, Fn.params, Param.deduce, Env.unify, Ty.head, Fn.enabled]

theorem viable_lit_mixed (f : Fn) : f.viable (.lit s o) (.mixed W F o') =
    match f with
    | .repMix => true
    | _ => false := by
  cases f <;> simp [Fn.viable, Fn.deduce, Fn.params, Param.deduce, Env.unify, Ty.head, Fn.enabled]

theorem viable_int_int (f : Fn) : f.viable (.int L) (.int R) = false := by
  cases f <;> simp [Fn.viable, Fn.deduce, Fn.params, Param.deduce, Env.unify, Ty.head, Fn.enabled]

/-- The outcomes of `resolve` for operands that are not both integers. -/
theorem resolve_eq (op : ArithOp) (l r : Ty) : resolve op l r =
    match op, l, r with
    | _, .frac L o, .frac R o' =>
      if o = o' then .calls .fracFrac (.ty (.frac (IntTy.common L R) o)) else .deleted
    | _, .frac L o, .int R => .calls .fracRep (.ty (.frac (IntTy.common L R) o))
    | _, .int L, .frac R o => .calls .repFrac (.ty (.frac (IntTy.common L R) o))
    | .plus, .mixed W F o, .mixed W' F' o' =>
      if o = o' then .calls .mixMix (.ty (.mixed (IntTy.common W W') (IntTy.common F F') o))
      else .ambiguous
    | .plus, .mixed W F o, .frac R o' =>
      if o = o' then .calls .mixFrac (.ty (.mixed (IntTy.common W R) (IntTy.common F R) o))
      else .ambiguous
    | .plus, .frac L o, .mixed W F o' =>
      if o = o' then .calls .fracMix (.ty (.mixed (IntTy.common W L) (IntTy.common F L) o'))
      else .ambiguous
    | .plus, .mixed W F o, .int R => .calls .mixRep (.ty (.mixed (IntTy.common W R) F o))
    | .plus, .int L, .mixed W F o => .calls .repMix (.ty (.mixed (IntTy.common L W) F o))
    | .divides, .frac T o, .lit _ o' =>
      if o = o' then .calls .fracLit (.ty (.frac T o)) else .ambiguous
    | .divides, .int T, .lit _ o => .calls .repLit (.ty (.frac T o))
    | .plus, .mixed _ _ _, .lit _ _ => .calls .mixRep .strange
    | .plus, .lit _ _, .mixed _ _ _ => .calls .repMix .strange
    | .divides, .mixed _ _ _, .lit _ _ => .calls .repLit .strange
    | .divides, .lit _ _, .lit _ _ => .calls .repLit .strange
    | _, .frac _ _, .mixed _ _ _ => .calls .fracRep .strange
    | _, .frac _ _, .lit _ _ => .calls .fracRep .strange
    | _, .mixed _ _ _, .frac _ _ => .calls .repFrac .strange
    | _, .lit _ _, .frac _ _ => .calls .repFrac .strange
    | _, _, _ => .noViable := by
  cases l <;> cases r <;> cases op <;>
    simp only [resolve, candidates, List.filter, viable_frac_frac, viable_frac_int,
      viable_int_frac, viable_mixed_mixed, viable_mixed_frac, viable_frac_mixed, viable_mixed_int,
      viable_int_mixed, viable_frac_lit, viable_lit_frac, viable_int_lit, viable_lit_int,
      viable_lit_lit, viable_mixed_lit, viable_lit_mixed, viable_int_int] <;>
    first
    | rfl
    | (split <;> simp_all <;> rfl)
    | (rename_i o _ _ o'; by_cases h : o = o' <;> simp [h] <;> rfl)

/-- The outcomes of `resolveCmp`. -/
theorem resolveCmp_eq (l r : Ty) : resolveCmp l r =
    match l, r with
    | .frac _ o, .frac _ o' => if o = o' then .calls .fracFrac .bool else .deleted
    | .frac _ _, .int _ => .calls .fracRep .bool
    | .int _, .frac _ _ => .calls .repFrac .bool
    | .frac _ _, _ => .calls .fracRep .strange
    | _, .frac _ _ => .calls .repFrac .strange
    | _, _ => .noViable := by
  cases l <;> cases r <;>
    simp only [resolveCmp, List.filter, viable_frac_frac, viable_frac_int,
      viable_int_frac, viable_mixed_mixed, viable_mixed_frac, viable_frac_mixed, viable_mixed_int,
      viable_int_mixed, viable_frac_lit, viable_lit_frac, viable_int_lit, viable_lit_int,
      viable_lit_lit, viable_mixed_lit, viable_lit_mixed, viable_int_int] <;>
    first
    | rfl
    | (rename_i o _ o'; by_cases h : o = o' <;> simp [h] <;> rfl)

/-- The outcomes of `resolveAssign`. -/
theorem resolveAssign_eq (l r : Ty) : resolveAssign l r =
    match l, r with
    | .frac L o, .frac _ o' => if o = o' then .calls .fracFrac (.ty (.frac L o)) else .deleted
    | .frac L o, .int _ => .calls .fracRep (.ty (.frac L o))
    | _, _ => .noViable := by
  cases l <;> cases r <;>
    simp only [resolveAssign, List.filter, viable_frac_frac, viable_frac_int,
      viable_int_frac, viable_mixed_mixed, viable_mixed_frac, viable_frac_mixed, viable_mixed_int,
      viable_int_mixed, viable_frac_lit, viable_lit_frac, viable_int_lit, viable_lit_int,
      viable_lit_lit, viable_mixed_lit, viable_lit_mixed, viable_int_int, assignable] <;>
    first
    | rfl
    | (rename_i o _ o'; by_cases h : o = o' <;> simp [h] <;> rfl)

end Ieme.Overload
