import Verif.Lemmas.Policies

/-!
# What the policy templates do: property C90
-/

namespace Ieme

open Res IntTy

variable {T : IntTy} {o : Ops} {mode : ReduceMode} {a : Args} {f r : Raw} {w : Bool}

/-- **C90** `reduce` finishes exactly on undefined fractions and on those whose parts have
representable absolute values, and then cancels the common factors. -/
theorem C90_reduce_iff (hf : f.InRange T) :
    f.reduce T mode = .ok r w ↔ f.Cancellable T ∧ r = f.lowest mode ∧ w = false :=
  Raw.reduce_iff hf

example : (⟨6, -8⟩ : Raw).reduce i32 .normalizeSigns = .ok ⟨-3, 4⟩ false ∧
    (⟨6, -8⟩ : Raw).reduce i32 .ignoreSigns = .ok ⟨3, -4⟩ false ∧
    ∀ r w, (⟨-2147483648, 2⟩ : Raw).reduce i32 .normalizeSigns ≠ .ok r w := by
  refine ⟨(C90_reduce_iff (by decide)).2 ⟨Or.inr ⟨by decide, by decide⟩, by decide, rfl⟩,
    (C90_reduce_iff (by decide)).2 ⟨Or.inr ⟨by decide, by decide⟩, by decide, rfl⟩, fun r w h => ?_⟩
  exact absurd ((C90_reduce_iff (by decide)).1 h).1 (by unfold Raw.Cancellable Raw.AbsInRange; decide)

/-- **C90** Under `reduced_output` an arithmetic operation finishes exactly when it does under
the inner policy with a result that can be reduced, and gives that result reduced. -/
theorem C90_reduced_output_arith {op : ArithOp} (ha : a.InRange T) :
    (Ops.reducedOutput o mode).arith T op a = .ok r w ↔
      ∃ s, o.arith T op a = .ok s w ∧ s.Cancellable T ∧ r = s.lowest mode := by
  simp only [Ops.arith, bind_eq_ok]
  constructor
  · rintro ⟨s, w1, w2, h1, h2, rfl⟩
    obtain ⟨h3, h4, rfl⟩ := (Raw.reduce_iff (Ops.arith_inRange ha h1)).1 h2
    exact ⟨s, by simpa using h1, h3, h4⟩
  · rintro ⟨s, h1, h3, h4⟩
    exact ⟨s, w, false, h1, (Raw.reduce_iff (Ops.arith_inRange ha h1)).2 ⟨h3, h4, rfl⟩, by simp⟩

example : (Ops.reducedOutput .fast .normalizeSigns).arith i32 .plus (.ff ⟨1, 2⟩ ⟨1, -6⟩) =
    .ok ⟨1, 3⟩ false :=
  (C90_reduced_output_arith (by constructor <;> decide)).2
    ⟨⟨-4, -12⟩, by decide +kernel, Or.inr ⟨by decide, by decide⟩, by decide⟩

/-- **C90** Under `reduced_input` an arithmetic operation finishes exactly when its fractions
can be reduced and the inner policy finishes on the reduced ones, with the same result. -/
theorem C90_reduced_input_arith {op : ArithOp} (ha : a.InRange T) :
    (Ops.reducedInput o mode).arith T op a = .ok r w ↔
      a.Cancellable T ∧ o.arith T op (a.lowest mode) = .ok r w := by
  simp only [Ops.arith, bind_eq_ok, Args.reduce_iff ha]
  constructor
  · rintro ⟨s, w1, w2, ⟨h1, rfl, rfl⟩, h2, rfl⟩
    exact ⟨h1, by simpa using h2⟩
  · rintro ⟨h1, h2⟩
    exact ⟨_, false, w, ⟨h1, rfl, rfl⟩, h2, by simp⟩

example : (Ops.reducedInput .fast .ignoreSigns).arith i32 .multiplies (.fr ⟨3, -6⟩ 4) =
    .ok ⟨4, -2⟩ false :=
  (C90_reduced_input_arith (by constructor <;> decide)).2
    ⟨Or.inr ⟨by decide, by decide⟩, by decide +kernel⟩

/-- **C90** Comparisons: `reduced_output` changes nothing, `reduced_input` compares the reduced
operands. -/
theorem C90_cmp {op : CmpOp} {b : Bool} (ha : a.InRange T) :
    (Ops.reducedOutput o mode).cmp T op a = o.cmp T op a ∧
    ((Ops.reducedInput o mode).cmp T op a = .ok b w ↔
      a.Cancellable T ∧ o.cmp T op (a.lowest mode) = .ok b w) := by
  refine ⟨rfl, ?_⟩
  simp only [Ops.cmp, bind_eq_ok, Args.reduce_iff ha]
  constructor
  · rintro ⟨s, w1, w2, ⟨h1, rfl, rfl⟩, h2, rfl⟩
    exact ⟨h1, by simpa using h2⟩
  · rintro ⟨h1, h2⟩
    exact ⟨_, false, w, ⟨h1, rfl, rfl⟩, h2, by simp⟩

example : (Ops.reducedInput .fast .normalizeSigns).cmp i32 .less (.fr ⟨3, -6⟩ 0) =
    .ok true false :=
  (C90_cmp (by constructor <;> decide)).2.2 ⟨Or.inr ⟨by decide, by decide⟩, by decide +kernel⟩

/-- **C90** Unary minus: `reduced_output` reduces the inner result with its mode;
`reduced_input` reduces the operand and always normalises its signs, whatever its mode. -/
theorem C90_negate (hf : f.InRange T) :
    ((Ops.reducedOutput o mode).negate T f = .ok r w ↔
      ∃ s, o.negate T f = .ok s w ∧ s.Cancellable T ∧ r = s.lowest mode) ∧
    ((Ops.reducedInput o mode).negate T f = .ok r w ↔
      f.Cancellable T ∧ o.negate T (f.lowest .normalizeSigns) = .ok r w) := by
  constructor
  · simp only [Ops.negate, bind_eq_ok]
    constructor
    · rintro ⟨s, w1, w2, h1, h2, rfl⟩
      obtain ⟨h3, h4, rfl⟩ := (Raw.reduce_iff (Ops.negate_inRange hf h1)).1 h2
      exact ⟨s, by simpa using h1, h3, h4⟩
    · rintro ⟨s, h1, h3, h4⟩
      exact ⟨s, w, false, h1, (Raw.reduce_iff (Ops.negate_inRange hf h1)).2 ⟨h3, h4, rfl⟩, by simp⟩
  · simp only [Ops.negate, bind_eq_ok, Raw.reduce_iff hf]
    constructor
    · rintro ⟨s, w1, w2, ⟨h1, rfl, rfl⟩, h2, rfl⟩
      exact ⟨h1, by simpa using h2⟩
    · rintro ⟨h1, h2⟩
      exact ⟨_, false, w, ⟨h1, rfl, rfl⟩, h2, by simp⟩

example : (Ops.reducedInput .fast .ignoreSigns).negate i32 ⟨3, -6⟩ = .ok ⟨1, 2⟩ false :=
  (C90_negate (by decide)).2.2 ⟨Or.inr ⟨by decide, by decide⟩, by decide +kernel⟩

/-- **C90** The named policies; the default reduces the operands of binary operations without
touching signs, computes like `safe` and reduces the result with sign normalisation. -/
theorem C90_named_policies :
    Ops.safeReducedI = .reducedInput .safe .ignoreSigns ∧
    Ops.safeReducedO = .reducedOutput .safe .normalizeSigns ∧
    Ops.safeReducedIO = .reducedInput (.reducedOutput .safe .normalizeSigns) .ignoreSigns ∧
    Ops.fastReducedI = .reducedInput .fast .ignoreSigns ∧
    Ops.fastReducedO = .reducedOutput .fast .normalizeSigns ∧
    Ops.fastReducedIO = .reducedInput (.reducedOutput .fast .normalizeSigns) .ignoreSigns ∧
    Ops.defaults = Ops.safeReducedIO :=
  ⟨rfl, rfl, rfl, rfl, rfl, rfl, rfl⟩

end Ieme
