import Verif.Lemmas.LeafText
import Verif.Spec.MixedLimits
import Verif.Props.LeafText

/-!
# C149: the limits of mixed numbers

`/repo/include/ieme/limits.hpp` specialises `limits` and `std::numeric_limits` for mixed numbers
(lines 32-45 and 96-139).  Both specialisations name a type `mixed_number::fraction_type`, which does
not exist: it is called `fractional_type`.  They also take two arguments where `mixed_number` has
three.
-/

namespace Ieme

open Leaf
open Header hiding Ty Func Cls Program Env Expr eval run invoke applyTy builtinTy memberTy selfTy
  binary choose fit parse

variable {z : ℕ} {h : IntTy → ℤ → BitVec z} {W F : IntTy} {o : Ops}

/-- **C149, refuted.**  Evaluated from the text, no function of `limits<mixed_number<W, F, o>>` can
be called, whatever the types and the policy. -/
theorem C149_limits_ill_formed (f : ℕ) :
    Gives h (limitOf (.mixed W F o) f) (.fault .illFormed) :=
  ⟨_, fun _ hn => limits_mixed_ok W F o f hn⟩

/-- **C149, refuted.**  Nor can a function or a constant of `std::numeric_limits` of a mixed number
with the default policy be used. -/
theorem C149_numeric_limits_ill_formed (f : ℕ) :
    Gives h (stdLimitOf (.mixed W F .defaults) f) (.fault .illFormed) ∧
    Gives h (stdConstOf (.mixed W F .defaults) f) (.fault .illFormed) :=
  ⟨⟨_, fun _ hn => std_mixed_member_ok W F f hn⟩, ⟨_, fun _ hn => std_mixed_const_ok W F f hn⟩⟩

/-- **C149, refuted.**  With any other policy no specialisation of `std::numeric_limits` fits: the
constants say that there is none, and every function, `max` and `min` among them, returns zero. -/
theorem C149_other_policies (ho : o ≠ .defaults) :
    (∀ f ∈ stdLimitNames,
      Gives h (stdLimitOf (.mixed W F o) f) (pure (.val (.mixed W F o ⟨0, ⟨0, 1⟩⟩)))) ∧
    (∀ x ∈ primaryNames, Gives h (stdConstOf (.mixed W F o) x) (pure (boolValue false))) := by
  constructor
  · intro f hf
    have hs : (intLimit i32 f).isSome := by
      revert f
      decide
    exact ⟨_, fun _ hn => primary_member_ok W F ho hs hn⟩
  · intro x hx
    have hs : primaryConst (z := z) x = some (boolValue false) := by
      simp only [primaryNames, List.mem_cons, List.not_mem_nil, or_false] at hx
      rcases hx with h | h | h | h | h | h | h | h <;> subst h <;> rfl
    exact ⟨_, fun _ hn => primary_const_ok W F ho hs hn⟩

/-- `std::numeric_limits<mixed_number<int, long, fast>>::is_specialized` and `min()` -/
example : Ops.fast ≠ .defaults ∧
    Leaf.invoke leaf (fun _ => Hash.stdHash 64) 20 (stdConstOf (.mixed i32 i64 .fast)
      N.«is_specialized») = pure (boolValue false) ∧
    Leaf.invoke leaf (fun _ => Hash.stdHash 64) 20 (stdLimitOf (.mixed i32 i64 .fast) N.«min») =
      pure (.val (.mixed i32 i64 .fast ⟨0, ⟨0, 1⟩⟩)) := by decide +kernel

/-- **C149** So no call of `max()` gives a mixed number that is at least one, in any way. -/
theorem C149_max_never_positive (m : Mixed)
    (hm : Gives h (limitOf (.mixed W F o) N.«max») (pure (.val (.mixed W F o m))) ∨
      Gives h (stdLimitOf (.mixed W F o) N.«max») (pure (.val (.mixed W F o m)))) :
    m = ⟨0, ⟨0, 1⟩⟩ ∧ o ≠ .defaults := by
  rcases hm with hm | hm
  · exact absurd (hm.unique (C149_limits_ill_formed _)) (by simp [pure])
  · by_cases ho : o = .defaults
    · subst ho
      exact absurd (hm.unique (C149_numeric_limits_ill_formed _).1) (by simp [pure])
    · have := hm.unique ((C149_other_policies ho).1 N.«max» (by simp [stdLimitNames]))
      simp only [pure, Res.ok.injEq, LV.val.injEq, Val.mixed.injEq, true_and, and_true] at this
      exact ⟨this, ho⟩

example : Gives h (stdLimitOf (.mixed i32 i32 .fast) N.«max»)
    (pure (.val (.mixed i32 i32 .fast ⟨0, ⟨0, 1⟩⟩))) :=
  (C149_other_policies (by decide)).1 N.«max» (by simp [stdLimitNames])

/-- **C149** It is only that name that is in the way of `max()` and `smallest()`: with it corrected
they are what they should be for `int`.  But even then `min()` runs into the precondition of
`std::gcd`, `undefined()` and `quiet_NaN()` divide by zero, and `has_quiet_NaN` is missing (it is
misspelt at line 109). -/
theorem C149_corrected :
    let run := Leaf.invoke (z := 64) correctedLimits (fun _ => Hash.stdHash 64) 30
    let t := TVal.mixed i32 i32 .defaults
    run (limitOf t N.«max») = pure (.val (.mixed i32 i32 .defaults ⟨2147483647, ⟨0, 1⟩⟩)) ∧
    run (limitOf t N.«smallest») =
      pure (.val (.mixed i32 i32 .defaults ⟨0, ⟨1, 2147483647⟩⟩)) ∧
    run (limitOf t N.«min») = .fault .gcdPrecond ∧
    run (limitOf t N.«undefined») = .fault .divByZero ∧
    run (stdLimitOf t N.«quiet_NaN») = .fault .divByZero ∧
    run (stdConstOf t N.«is_exact») = pure (boolValue true) ∧
    run (stdConstOf t N.«has_quiet_NaN») = .fault .illFormed := by
  decide +kernel

end Ieme
