import Verif.Lemmas.ReduceAny
import Verif.Props.Finish

/-!
# Reduce modes that are not enumerators: property C128

`mode` is the number cast to `reduce_mode`.
-/

namespace Ieme

open Res IntTy

variable {T : IntTy} {o : Ops} {p : Policy} {mode : Int} {f : Raw} {x : ℚ}

/-- **C128** `reduce` with the number of an enumerator is `reduce` with the enumerator; with any
other number it gives `0/0`, whatever the fraction, and reports nothing. -/
theorem C128_reduce :
    (∀ m : ReduceMode, f.reduceCast T m.number = f.reduce T m) ∧
    (mode ≠ 0 → mode ≠ 1 → f.reduceCast T mode ⇓ ⟨0, 0⟩) := by
  refine ⟨fun m => by cases m <;> rfl, fun h0 h1 => ?_⟩
  unfold Raw.reduceCast
  rw [if_neg (by exact h0), if_neg (by exact h1)]
  rfl

example : (⟨6, -4⟩ : Raw).reduceCast i32 0 ⇓ ⟨-3, 2⟩ ∧ (⟨6, -4⟩ : Raw).reduceCast i32 1 ⇓ ⟨3, -2⟩ ∧
    (⟨6, -4⟩ : Raw).reduceCast i32 2 ⇓ ⟨0, 0⟩ ∧ (⟨6, -4⟩ : Raw).reduceCast i32 (-1) ⇓ ⟨0, 0⟩ :=
  ⟨by decide, by decide, by decide, by decide⟩

/-- **C128** For a fraction that can be reduced, the enumerators are exactly the modes with which
`reduce` keeps the value. -/
theorem C128_preserves_iff (hf : f.InRange T)
    (hm : T.signed = true → f.num ≠ T.min ∧ f.den ≠ T.min) (hx : Denotes f x) :
    (∃ r, f.reduceCast T mode ⇓ r ∧ Denotes r x) ↔ mode = 0 ∨ mode = 1 := by
  constructor
  · rintro ⟨r, hr, hd⟩
    by_contra h
    rw [not_or] at h
    rw [C128_reduce.2 h.1 h.2] at hr
    simp only [Res.ok.injEq, and_true] at hr
    subst hr
    exact hd.1 rfl
  · intro h
    obtain ⟨m, hmode⟩ : ∃ m : ReduceMode, mode = m.number := by
      rcases h with h | h
      · exact ⟨.normalizeSigns, h⟩
      · exact ⟨.ignoreSigns, h⟩
    obtain ⟨r, w, hr⟩ := (C21_reduce_finishes_iff m hf hx.1).2 hm
    obtain rfl : w = false := C22_reduce_never_wraps hf hr
    exact ⟨r, by rw [hmode, (C128_reduce (mode := 0)).1, hr], Raw.reduce_denotes hx hr⟩

example : (⟨6, -4⟩ : Raw).InRange i32 ∧ (6 : ℤ) ≠ i32.min ∧ (-4 : ℤ) ≠ i32.min ∧
    Denotes ⟨6, -4⟩ (-3/2) ∧ ¬ Denotes ⟨0, 0⟩ (-3/2) :=
  ⟨by decide, by decide, by decide, by norm_num [Denotes], by norm_num [Denotes]⟩

/-- **C128** With the number of an enumerator the policy templates are those with the
enumerator. -/
theorem C128_policies (m : ReduceMode) :
    (Policy.ofOps o).reducedInputCast m.number = Policy.ofOps (.reducedInput o m) ∧
    (Policy.ofOps o).reducedOutputCast m.number = Policy.ofOps (.reducedOutput o m) := by
  have h : ∀ T (f : Raw) (m : ReduceMode), f.reduceCast T m.number = f.reduce T m :=
    fun _ _ m => (C128_reduce (mode := 0)).1 m
  have ha : ∀ T (a : Args), a.reduceCast T m.number = a.reduce T m := fun T a => by
    cases a <;> simp only [Args.reduceCast, Args.reduce, h]
  constructor
  · simp only [Policy.reducedInputCast, Policy.ofOps, h, ha, Ops.negate, Ops.arith, Ops.cmp]
  · simp only [Policy.reducedOutputCast, Policy.ofOps, h, Ops.negate, Ops.arith, Ops.cmp]

example : ((Policy.ofOps .safe).reducedInputCast 1).arith i32 .plus (.ff ⟨2, 4⟩ ⟨3, 6⟩) ⇓ ⟨2, 2⟩ ∧
    (Policy.ofOps .safeReducedI).arith i32 .plus (.ff ⟨2, 4⟩ ⟨3, 6⟩) ⇓ ⟨2, 2⟩ :=
  ⟨by decide, by decide⟩

/-- **C128** `reduced_output` with any other number, over any policy: every operation that
finishes gives `0/0`, one that does not fails the same way, and comparisons are those of the
inner policy. -/
theorem C128_output (h0 : mode ≠ 0) (h1 : mode ≠ 1) (op : ArithOp) (c : CmpOp) (a : Args) :
    (∀ r w, p.arith T op a = .ok r w →
      (p.reducedOutputCast mode).arith T op a = .ok ⟨0, 0⟩ w) ∧
    (∀ k, p.arith T op a = .fault k → (p.reducedOutputCast mode).arith T op a = .fault k) ∧
    (∀ r w, p.negate T f = .ok r w → (p.reducedOutputCast mode).negate T f = .ok ⟨0, 0⟩ w) ∧
    (∀ k, p.negate T f = .fault k → (p.reducedOutputCast mode).negate T f = .fault k) ∧
    (p.reducedOutputCast mode).cmp T c a = p.cmp T c a := by
  have e : ∀ r : Raw, r.reduceCast T mode ⇓ ⟨0, 0⟩ := fun r => C128_reduce.2 h0 h1
  refine ⟨fun r w h => ?_, fun k h => ?_, fun r w h => ?_, fun k h => ?_, rfl⟩
  · simp only [Policy.reducedOutputCast, bind_eq_ok]
    exact ⟨r, w, false, h, e r, by simp⟩
  · simp only [Policy.reducedOutputCast, h, fault_bind]
  · simp only [Policy.reducedOutputCast, bind_eq_ok]
    exact ⟨r, w, false, h, e r, by simp⟩
  · simp only [Policy.reducedOutputCast, h, fault_bind]

example : ((Policy.ofOps .safe).reducedOutputCast 2).arith i32 .plus (.ff ⟨1, 2⟩ ⟨1, 3⟩) ⇓ ⟨0, 0⟩ ∧
    ((Policy.ofOps .safe).reducedOutputCast 2).negate i32 ⟨1, 2⟩ ⇓ ⟨0, 0⟩ ∧
    ((Policy.ofOps .safe).reducedOutputCast 2).arith i32 .plus (.fr ⟨1, 2⟩ 2147483647) =
      .fault .overflow ∧
    ((Policy.ofOps .safe).reducedOutputCast 2).cmp i32 .less (.ff ⟨1, 3⟩ ⟨1, 2⟩) ⇓ true :=
  ⟨by decide, by decide, by decide, by decide⟩

/-- **C128** `reduced_input` with any other number, over a policy of the library: an operation
that finishes gives `0/0`, and every comparison is false but `!=`, which is true.  Negation
reduces with the default mode and is not affected. -/
theorem C128_input (h0 : mode ≠ 0) (h1 : mode ≠ 1) (op : ArithOp) (c : CmpOp) (a : Args) :
    (∀ r w, ((Policy.ofOps o).reducedInputCast mode).arith T op a = .ok r w →
      r = ⟨0, 0⟩ ∧ w = false) ∧
    ((Policy.ofOps o).reducedInputCast mode).cmp T c a ⇓ decide (c = .notEqualTo) ∧
    ((Policy.ofOps o).reducedInputCast mode).negate T f =
      (Ops.reducedInput o .normalizeSigns).negate T f := by
  have hn : ∀ m : ReduceMode, mode ≠ m.number := fun m => by
    cases m
    · exact h0
    · exact h1
  obtain ⟨b, hb, hB⟩ := a.reduceCast_blank (T := T) hn
  refine ⟨fun r w h => ?_, ?_, rfl⟩
  · simp only [Policy.reducedInputCast, hb, ok_bind_false] at h
    exact Ops.arith_blank o op hB h
  · simp only [Policy.reducedInputCast, hb, ok_bind_false]
    exact Ops.cmp_blank o c hB

/-- **C128** So such a `reduced_input` can not tell two fractions apart, over any policy. -/
theorem C128_input_blind (h0 : mode ≠ 0) (h1 : mode ≠ 1) (op : ArithOp) (c : CmpOp)
    (l r l' r' : Raw) (n : Int) :
    (p.reducedInputCast mode).arith T op (.ff l r) =
      (p.reducedInputCast mode).arith T op (.ff l' r') ∧
    (p.reducedInputCast mode).arith T op (.fr l n) =
      (p.reducedInputCast mode).arith T op (.fr l' n) ∧
    (p.reducedInputCast mode).arith T op (.rf n r) =
      (p.reducedInputCast mode).arith T op (.rf n r') ∧
    (p.reducedInputCast mode).cmp T c (.ff l r) = (p.reducedInputCast mode).cmp T c (.ff l' r') ∧
    (p.reducedInputCast mode).cmp T c (.fr l n) = (p.reducedInputCast mode).cmp T c (.fr l' n) ∧
    (p.reducedInputCast mode).cmp T c (.rf n r) = (p.reducedInputCast mode).cmp T c (.rf n r') := by
  have e : ∀ r : Raw, r.reduceCast T mode ⇓ ⟨0, 0⟩ := fun r => C128_reduce.2 h0 h1
  simp only [Policy.reducedInputCast, Args.reduceCast, e, ok_bind_false, and_self]

example : ((Policy.ofOps .fast).reducedInputCast 2).arith i32 .plus (.ff ⟨1, 2⟩ ⟨1, 3⟩) ⇓ ⟨0, 0⟩ ∧
    ((Policy.ofOps .safe).reducedInputCast 2).arith i32 .plus (.ff ⟨1, 2⟩ ⟨1, 3⟩) =
      .fault .divByZero ∧
    ((Policy.ofOps .safe).reducedInputCast 2).cmp i32 .equalTo (.ff ⟨1, 2⟩ ⟨1, 2⟩) ⇓ false ∧
    ((Policy.ofOps .safe).reducedInputCast 2).cmp i32 .notEqualTo (.ff ⟨1, 2⟩ ⟨1, 2⟩) ⇓ true ∧
    ((Policy.ofOps .safe).reducedInputCast 2).negate i32 ⟨2, 4⟩ ⇓ ⟨-1, 2⟩ :=
  ⟨by decide, by decide, by decide, by decide, by decide⟩

/-- **C128** The policies are then not sound: a sum of two fractions loses its value without a
report. -/
theorem C128_unsound_wrong : ¬ ((Policy.ofOps .safe).reducedOutputCast 2).arith i32 .plus
      (.ff ⟨1, 2⟩ ⟨1, 3⟩) ⇓ ⟨5, 6⟩ ∧
    (Policy.ofOps .safe).arith i32 .plus (.ff ⟨1, 2⟩ ⟨1, 3⟩) ⇓ ⟨5, 6⟩ ∧
    ((Policy.ofOps .safe).reducedOutputCast 2).arith i32 .plus (.ff ⟨1, 2⟩ ⟨1, 3⟩) ⇓ ⟨0, 0⟩ :=
  ⟨by decide, by decide, by decide⟩

end Ieme
