import Verif.Lemmas.PolicyState

/-!
# C144: policies with hidden state
-/

namespace Ieme

open Res
open scoped List

variable {α σ : Type} {p : Policy} {P : SPolicy σ} {note : σ → Call → σ} {T L R W F S : IntTy}
  {e e' : Expr} {s s' : σ} {r r' : Raw} {w w' : Bool}

/-- `(1/2 + 1/3) * (1/2 - 1/3)` -/
def twoSides : Expr :=
  .ff .multiplies (.ff .plus (.lit ⟨1, 2⟩) (.lit ⟨1, 3⟩)) (.ff .minus (.lit ⟨1, 2⟩) (.lit ⟨1, 3⟩))

theorem counting_observes (p : Policy) : p.counting.Observes p fun n _ => n + 1 :=
  ⟨fun _ _ _ => rfl, fun _ _ _ _ => rfl, fun _ _ _ _ => rfl⟩

theorem logging_observes (p : Policy) : p.logging.Observes p fun cs c => cs ++ [c] :=
  ⟨fun _ _ _ => rfl, fun _ _ _ _ => rfl, fun _ _ _ _ => rfl⟩

/-- **C144** A policy that answers like another one and only keeps a record changes no result: what
`Calls` says of a function implies that it has the outcome it has without state. -/
theorem C144_unchanged {f : ∀ σ : Type, SPolicy σ → Act σ α} {y : Res α} {A : List Member → Prop}
    (h : p.Calls f y A) (hP : P.Observes p note) (s : σ) : (do return (← f σ P s).1) = y := by
  obtain ⟨cs, h1, -⟩ := h
  rw [h1 σ P note hP s]
  simp

example : (Policy.ofOps .safe).counting.Observes (Policy.ofOps .safe) (fun n _ => n + 1) ∧
    (Policy.ofOps .safe).counting.arith i32 .plus (.ff ⟨1, 2⟩ ⟨1, 3⟩) 7 = .ok (⟨5, 6⟩, 8) false :=
  ⟨counting_observes _, by decide⟩

/-- **C144** Every operator calls the function of the policy that has its name, once and no other, for
operands of whatever types; so does every compound assignment. -/
theorem C144_operators (op : ArithOp) (c : CmpOp) (a : Args) (v l : Raw) (n : ℤ) :
    p.Calls (fun _ P => P.fNeg T v) (p.fNeg T v) (· = [.negate]) ∧
    p.Calls (fun _ P => P.fArith L R op a) (p.fArith L R op a) (· = [.arith op]) ∧
    p.Calls (fun _ P => P.fCmp L R c a) (p.fCmp L R c a) (· = [.cmp c]) ∧
    p.Calls (fun _ P => P.assignF L R op l v) (p.assignF L R op l v) (· = [.arith op]) ∧
    p.Calls (fun _ P => P.assignR L R op l n) (p.assignR L R op l n) (· = [.arith op]) :=
  ⟨.fNeg v, .fArith L R op a, .fCmp L R c a, .assignF L R op l v, .assignR L R op l n⟩

example : (Policy.ofOps .defaults).counting.fArith i32 i64 .minus (.ff ⟨1, 2⟩ ⟨1, 3⟩) 0 =
    .ok (⟨1, 6⟩, 1) false := by decide

/-- **C144** An expression, evaluated from left to right, calls the policy once for each operator other
than unary plus; a sequence of compound assignments calls it once for each, in order. -/
theorem C144_expressions (e : Expr) (as : List Assign) (f : Raw) :
    p.Calls (fun _ P => P.eval T e) (p.eval T e) (· = e.members) ∧
    p.Calls (fun _ P => P.run T f as) (p.run T f as) (· = as.map Assign.member) :=
  ⟨.eval e, .run as f⟩

example : (Policy.ofOps .defaults).counting.eval i32 twoSides 0 = .ok (⟨5, 36⟩, 3) false ∧
    twoSides.members = [.arith .plus, .arith .minus, .arith .multiplies] := by decide

/-- **C144** The functions for fractions: `abs` calls the policy at most once, `round` twice, those for
a new denominator once and the rounding one of them three times. -/
theorem C144_math (f : Raw) (d : ℤ) :
    p.Calls (fun _ P => P.abs T f) (p.abs T f) (· = if f.isNonNegative then [] else [.negate]) ∧
    p.Calls (fun _ P => P.round T f) (p.round T f) (· = [.arith .minus, .cmp .less]) ∧
    p.Calls (fun _ P => P.truncRedenominate T f d) (p.truncRedenominate T f d)
      (· = [.arith .multiplies]) ∧
    p.Calls (fun _ P => P.ceilRedenominate T f d) (p.ceilRedenominate T f d)
      (· = [.arith .multiplies]) ∧
    p.Calls (fun _ P => P.floorRedenominate T f d) (p.floorRedenominate T f d)
      (· = [.arith .multiplies]) ∧
    p.Calls (fun _ P => P.roundRedenominate T f d) (p.roundRedenominate T f d)
      (· = [.arith .multiplies, .arith .minus, .cmp .less]) :=
  ⟨.abs f, .round f, .truncRedenominate f d, .ceilRedenominate f d, .floorRedenominate f d,
    .roundRedenominate f d⟩

example : (Policy.ofOps .defaults).counting.round i32 ⟨7, 2⟩ 0 = .ok (4, 2) false ∧
    (Policy.ofOps .defaults).counting.abs i32 ⟨-7, 2⟩ 0 = .ok (⟨7, 2⟩, 1) false := by decide

/-- **C144** Mixed numbers: putting one in order takes at most a subtraction and then an addition; the
conversions take one call each, the operators one or two more than putting the result in order.
Whole expressions have the outcome they have without state. -/
theorem C144_mixed (m l : Mixed) (x : ℤ) (v : Raw) (e : MExpr) (W₁ F₁ W₂ F₂ : IntTy) :
    p.Calls (fun _ P => P.mk' W F x v) (p.mk' W F x v) (· <+ [.arith .minus, .arith .plus]) ∧
    p.Calls (fun _ P => P.ofFraction W F S v) (p.ofFraction W F S v) (· = [.arith .minus]) ∧
    p.Calls (fun _ P => P.asFraction W F m) (p.asFraction W F m) (· = [.arith .plus]) ∧
    p.Calls (fun _ P => P.mNeg W F m) (p.mNeg W F m)
      (fun ms => ∃ ns, ms = .negate :: ns ∧ ns <+ [.arith .minus, .arith .plus]) ∧
    p.Calls (fun _ P => P.mAdd W₁ F₁ W₂ F₂ l m) (p.mAdd W₁ F₁ W₂ F₂ l m)
      (fun ms => ∃ ns, ms = .arith .plus :: ns ∧ ns <+ [.arith .minus, .arith .plus]) ∧
    p.Calls (fun _ P => P.mAddFraction W F₁ F₂ l v) (p.mAddFraction W F₁ F₂ l v)
      (fun ms => ∃ ns, ms = .arith .minus :: .arith .plus :: ns ∧
        ns <+ [.arith .minus, .arith .plus]) ∧
    p.Calls (fun _ P => P.mAddWhole W₁ F W₂ l x) (p.mAddWhole W₁ F W₂ l x)
      (· <+ [.arith .minus, .arith .plus]) ∧
    p.Calls (fun _ P => P.mEval e) (p.mEval e) (fun _ => True) :=
  ⟨.mk' W F x v, .ofFraction W F S v, .asFraction W F m, .mNeg W F m, .mAdd W₁ F₁ W₂ F₂ l m,
    .mAddFraction W F₁ F₂ l v, .mAddWhole W₁ F W₂ l x, .mEval e⟩

example : (Policy.ofOps .defaults).counting.mk' i32 i32 1 ⟨7, 2⟩ 0 = .ok (⟨4, ⟨1, 2⟩⟩, 1) false ∧
    (Policy.ofOps .defaults).counting.mk' i32 i32 5 ⟨-7, 2⟩ 0 = .ok (⟨1, ⟨1, 2⟩⟩, 2) false := by
  decide

/-- **C144** Conversions: from text an addition and a multiplication or nothing, from floating point
one more multiplication, between durations a call for each part of the ratio that is not one. -/
theorem C144_conversions (string : List Char) (E : FloatingPoint.Endian) (G : Fmt) (bits : ℕ)
    {A B : Chrono.Period} {n d : ℤ} (hr : Chrono.ratioDivide A B = some (n, d)) (c : Chrono.Count) :
    p.Calls (fun _ P => P.ofString T string) (p.ofString T string)
      (fun ms => ms = [] ∨ ms = [.arith .plus, .arith .multiplies]) ∧
    p.Calls (fun _ P => P.ofFloat E G T bits) (p.ofFloat E G T bits)
      (fun ms => ms = [] ∨ ms = [.arith .plus, .arith .multiplies, .arith .multiplies]) ∧
    p.Calls (fun _ P => P.durationCast T A B c) (p.durationCast T A B c)
      (· = (if n = 1 then [] else [.arith .multiplies]) ++
        if d = 1 then [] else [.arith .divides]) :=
  ⟨.ofString string, .ofFloat E G bits, .durationCast hr c⟩

example : (Policy.ofOps .defaults).counting.ofString i32 "2.5".toList 0 = .ok (⟨5, 2⟩, 2) false ∧
    (Policy.ofOps .defaults).counting.ofString i32 "x".toList 0 = .ok (⟨0, 0⟩, 0) false := by
  decide +kernel

/-- **C144** However often a policy is wrapped in `reduced_input` and `reduced_output`, a call from
outside makes exactly one call of it, of the same name. -/
theorem C144_wrappers (ws : List (Bool × ReduceMode)) (op : ArithOp) (c : CmpOp) (a : Args) (v : Raw) :
    p.Calls (fun _ P => (P.wrap ws).negate T v) ((p.wrap ws).negate T v) (· = [.negate]) ∧
    p.Calls (fun _ P => (P.wrap ws).arith T op a) ((p.wrap ws).arith T op a) (· = [.arith op]) ∧
    p.Calls (fun _ P => (P.wrap ws).cmp T c a) ((p.wrap ws).cmp T c a) (· = [.cmp c]) :=
  ⟨.wrap_negate ws v, .wrap_arith ws op a, .wrap_cmp ws c a⟩

example : ((Policy.ofOps .fast).logging.wrap [(true, .normalizeSigns), (false, .ignoreSigns)]).arith
      i32 .plus (.ff ⟨2, 4⟩ ⟨3, 6⟩) [] =
    .ok (⟨1, 1⟩, [.arith i32 .plus (.ff ⟨1, 2⟩ ⟨1, 2⟩)]) false := by rfl

/-- **C144** The operands of an operator may be evaluated in any order, even alternately.  Over a policy
that only keeps a record, exactly those outcomes are possible where the calls are in an order that has
each operator behind its operands. -/
theorem C144_any_order (hP : P.Observes p note) :
    P.Steps T e s (.lit r) s' w ↔ ∃ cs, p.Traced T e r w cs ∧ s' = cs.foldl note s :=
  SPolicy.steps_iff hP

example : (Policy.ofOps .defaults).Traced i32 twoSides ⟨5, 36⟩ false
    [.arith i32 .minus (.ff ⟨1, 2⟩ ⟨1, 3⟩), .arith i32 .plus (.ff ⟨1, 2⟩ ⟨1, 3⟩),
      .arith i32 .multiplies (.ff ⟨5, 6⟩ ⟨1, 6⟩)] :=
  .ff (w := false) (w' := false) (w'' := false)
    (.ff (w := false) (w' := false) (w'' := false) (c := ⟨5, 6⟩) .lit .lit .nil (by decide))
    (.ff (w := false) (w' := false) (w'' := false) (c := ⟨1, 6⟩) .lit .lit .nil (by decide))
    (.right (.left .nil)) (by decide)

/-- **C144** No order gets stuck or changes the result: while an expression that has a result is being
evaluated over a policy that only keeps a record, either the result has been reached or another call
returns. -/
theorem C144_never_stuck (hP : P.Observes p note) (h : p.eval T e = .ok r w)
    (hs : P.Steps T e s e' s' w') :
    (e' = .lit r ∧ w' = w) ∨ ∃ e'' s'' w'', P.Step T e' s' e'' s'' w'' := by
  obtain ⟨n, cs, h1, rfl⟩ := hs.labelled hP
  obtain ⟨w2, h2, rfl⟩ := h1.eval h
  rcases LStep.progress h2 with rfl | ⟨d, e'', w'', h3⟩
  · obtain ⟨-, rfl⟩ := pure_eq_ok.1 (show (pure r : Res Raw) = _ from h2)
    exact .inl ⟨rfl, by rw [Bool.or_false]⟩
  · exact .inr ⟨_, _, _, h3.step hP⟩

example : (Policy.ofOps .defaults).eval i32 twoSides = .ok ⟨5, 36⟩ false := by decide

/-- **C144** Every order comes to an end: each call, of any policy, does away with one operator. -/
theorem C144_ends (h : P.Step T e s e' s' w) : e.operators = e'.operators + 1 := h.operators

example : twoSides.operators = 3 := rfl

/-- **C144** If an expression has no result without state, no order has one over a policy that only
keeps a record; if it has one, every order has this one. -/
theorem C144_result (hP : P.Observes p note) (h : P.Steps T e s (.lit r) s' w) :
    p.eval T e = .ok r w := by
  obtain ⟨cs, h1, -⟩ := (C144_any_order hP).1 h
  exact h1.eval

/-- Under `safe` the sum below overflows: no order has a result. -/
example : ¬ ∃ r s' w, (Policy.ofOps .safe).counting.Steps i32
    (.ff .plus (.lit ⟨2147483647, 1⟩) (.lit ⟨1, 1⟩)) 0 (.lit r) s' w := by
  rintro ⟨r, s', w, h⟩
  have := C144_result (counting_observes _) h
  revert this
  have : (Policy.ofOps .safe).eval i32 (.ff .plus (.lit ⟨2147483647, 1⟩) (.lit ⟨1, 1⟩)) =
      .fault .overflow := by decide
  rw [this]
  simp

/-- **C144** In every order the calls are the same, those of the operators of the expression; only
their order differs. -/
theorem C144_same_calls {cs cs' : List Call} (h : p.Traced T e r w cs)
    (h' : p.Traced T e r' w' cs') : r = r' ∧ w = w' ∧ cs.Perm cs' ∧
      (cs.map Call.member).Perm e.members := by
  have h1 := h.eval
  rw [h'.eval] at h1
  cases h1
  exact ⟨rfl, rfl, h.perm h', h.members⟩

example : (Policy.ofOps .defaults).Traced i32 (.neg (.lit ⟨1, 2⟩)) ⟨-1, 2⟩ false
    [.negate i32 ⟨1, 2⟩] :=
  .neg (w := false) (w' := false) .lit (by decide)

/-- **C144** If the order in which two calls are recorded does not matter, no order of evaluation does:
not only the result but also the state is the same in the end. -/
theorem C144_commuting {s₁ s₂ : σ} (hP : P.Observes p note)
    (hn : ∀ s c d, note (note s c) d = note (note s d) c) (h : P.Steps T e s (.lit r) s₁ w)
    (h' : P.Steps T e s (.lit r') s₂ w') : r = r' ∧ w = w' ∧ s₁ = s₂ := by
  obtain ⟨cs, h1, rfl⟩ := (C144_any_order hP).1 h
  obtain ⟨cs', h2, rfl⟩ := (C144_any_order hP).1 h'
  obtain ⟨h3, h4, h5, -⟩ := C144_same_calls h1 h2
  have : RightCommutative note := ⟨hn⟩
  exact ⟨h3, h4, h5.foldl_eq s⟩

example : (Policy.ofOps .defaults).counting.Observes (Policy.ofOps .defaults) (fun n _ => n + 1) ∧
    (∀ n (c d : Call), (fun n (_ : Call) => n + 1) ((fun n (_ : Call) => n + 1) n c) d =
      (fun n (_ : Call) => n + 1) ((fun n (_ : Call) => n + 1) n d) c) ∧
    (Policy.ofOps .defaults).counting.Steps i32 twoSides 0 (.lit ⟨5, 36⟩) 3 false :=
  ⟨counting_observes _, fun _ _ _ => rfl, SPolicy.eval_steps (by decide)⟩

/-- **C144** A counter of the calls is right in every order. -/
theorem C144_count {n m : ℕ} (h : p.counting.Steps T e n (.lit r) m w) :
    m = n + e.members.length := by
  obtain ⟨cs, h1, rfl⟩ := (C144_any_order (counting_observes p)).1 h
  have h2 := h1.members.length_eq
  rw [List.length_map] at h2
  rw [← h2]
  clear h h1 h2
  induction cs generalizing n with
  | nil => rfl
  | cons c cs ih => rw [List.foldl_cons, ih, List.length_cons]; omega

example : (Policy.ofOps .defaults).counting.Steps i32 twoSides 0 (.lit ⟨5, 36⟩) 3 false :=
  SPolicy.eval_steps (by decide)

/-- **C144** Whatever the policy does with its state, left to right is one of the orders. -/
theorem C144_left_to_right (h : P.eval T e s = .ok (r, s') w) : P.Steps T e s (.lit r) s' w :=
  SPolicy.eval_steps h

example : (Policy.ofOps .defaults).logging.eval i32 (.neg (.lit ⟨1, 2⟩)) [] =
    .ok (⟨-1, 2⟩, [.negate i32 ⟨1, 2⟩]) false := rfl

/-- **C144** A flag raised whenever something wraps tells of every result that is not exact, for exactly
those policies that are right where nothing wraps, for instance all policies of the library. -/
theorem C144_flagging_iff : p.flagging.Flags (· = true) ↔ p.Sound := by
  have key : ∀ {y : Res Raw} {s s' : Bool} {r : Raw} {w : Bool},
      (match y with | .ok r w => Res.ok (r, s || w) false | .fault k => .fault k) = .ok (r, s') w →
      ¬ s' = true → ¬ s = true ∧ y = .ok r false := by
    intro y s s' r w h hb
    cases y with
    | fault k => cases h
    | ok a v => cases h; cases s <;> cases v <;> simp_all
  constructor
  · intro h
    refine ⟨fun {T v r x} hv hx hr => ?_, fun {T op a r x y q} ha hx hq hr => ?_⟩
    · exact (h.negate (s := false) (s' := false) (w := false)
        (by simp only [Policy.flagging, hr]; rfl) (by simp)).2 x hv hx
    · exact (h.arith (s := false) (s' := false) (w := false)
        (by simp only [Policy.flagging, hr]; rfl) (by simp)).2 x y q ha hx hq
  · intro hp
    refine ⟨fun h hb => ?_, fun h hb => ?_⟩
    · obtain ⟨h1, h2⟩ := key h hb
      exact ⟨h1, fun x hv hx => hp.negate hv hx h2⟩
    · obtain ⟨h1, h2⟩ := key h hb
      exact ⟨h1, fun x y q ha hx hq => hp.arith ha hx hq h2⟩

example : (Policy.ofOps .fast).flagging.Flags (· = true) ∧
    (Policy.ofOps .fast).flagging.eval u32 (.ff .minus (.lit ⟨1, 2⟩) (.lit ⟨3, 2⟩)) false =
      .ok (⟨4294967292, 4⟩, true) false ∧
    (Policy.ofOps .fast).flagging.eval u32 (.ff .minus (.lit ⟨3, 2⟩) (.lit ⟨1, 2⟩)) false =
      .ok (⟨4, 4⟩, false) false :=
  ⟨C144_flagging_iff.2 (Policy.ofOps_sound .fast), by decide, by decide⟩

/-- **C144** A flag that a policy raises whenever a result is not exact, and that stays raised, can be
relied on in every order: if it is not raised in the end, the result is exact. -/
theorem C144_flag_exact {bad : σ → Prop} {q : ℚ} (hP : P.Flags bad) (hr : e.LeavesInRange T)
    (hq : e.value = some q) (h : P.Steps T e s (.lit r) s' w) (hb : ¬ bad s') :
    r.InRange T ∧ Denotes r q ∧ ¬ bad s := by
  obtain ⟨h1, h2⟩ := hP.steps h hb hr hq
  exact ⟨h1, SPolicy.Flags.litValue_denotes.1 h2, hP.steps_bad h hb⟩

example : (Policy.ofOps .safe).flagging.Flags (· = true) ∧ twoSides.LeavesInRange u32 ∧
    twoSides.value = some (5 / 36) ∧
    (Policy.ofOps .safe).flagging.Steps u32 twoSides false (.lit ⟨5, 36⟩) false false := by
  refine ⟨C144_flagging_iff.2 (Policy.ofOps_sound .safe), ?_, ?_, SPolicy.eval_steps (by decide)⟩
  · simp only [twoSides, Expr.LeavesInRange]; decide
  · norm_num [twoSides, Expr.value, litValue, ArithOp.value]

/-- A policy whose sums are numbered, whatever their operands. -/
def ticketing : SPolicy ℕ where
  negate _ v n := .ok (v, n) false
  arith T op a n := match op with
    | .plus => .ok (⟨n, 1⟩, n + 1) false
    | op => do return (← Ops.defaults.arith T op a, n)
  cmp _ _ _ n := .ok (true, n) false

/-- **C144** Where answers depend on the state, results depend on the order, which is unspecified: the
claim for arbitrary policies is false. -/
theorem C144_order_matters : ∃ (P : SPolicy ℕ) (e : Expr) (n m : ℕ) (r r' : Raw),
    P.Steps i32 e 0 (.lit r) n false ∧ P.Steps i32 e 0 (.lit r') m false ∧
      litValue r ≠ litValue r' := by
  refine ⟨ticketing, .ff .minus (.ff .plus (.lit ⟨1, 2⟩) (.lit ⟨1, 3⟩))
    (.ff .plus (.lit ⟨1, 2⟩) (.lit ⟨1, 3⟩)), 2, 2, ⟨-1, 1⟩, ⟨1, 1⟩,
    SPolicy.eval_steps (by decide), ?_, by norm_num [litValue]⟩
  exact .step (w := false) (w' := false)
    (.inRight (.ff (r := ⟨0, 1⟩) (s' := 1) (by decide))) <|
    .step (w := false) (w' := false) (.inLeft (.ff (r := ⟨1, 1⟩) (s' := 2) (by decide))) <|
    .step (w := false) (w' := false) (.ff (r := ⟨1, 1⟩) (s' := 2) (by decide)) .done

/-- **C144** The order of the entries of a log depends on the order of evaluation too. -/
theorem C144_log_order : ∃ cs cs' : List Call, cs ≠ cs' ∧
    (Policy.ofOps .defaults).logging.Steps i32 twoSides [] (.lit ⟨5, 36⟩) cs false ∧
    (Policy.ofOps .defaults).logging.Steps i32 twoSides [] (.lit ⟨5, 36⟩) cs' false := by
  have h : ∀ {es : List Call}, Shuffle [.arith i32 .plus (.ff ⟨1, 2⟩ ⟨1, 3⟩)]
      [.arith i32 .minus (.ff ⟨1, 2⟩ ⟨1, 3⟩)] es →
      (Policy.ofOps .defaults).Traced i32 twoSides ⟨5, 36⟩ false
        (es ++ [.arith i32 .multiplies (.ff ⟨5, 6⟩ ⟨1, 6⟩)]) := fun hs =>
    .ff (w := false) (w' := false) (w'' := false)
      (.ff (w := false) (w' := false) (w'' := false) (c := ⟨5, 6⟩) .lit .lit .nil (by decide))
      (.ff (w := false) (w' := false) (w'' := false) (c := ⟨1, 6⟩) .lit .lit .nil (by decide))
      hs (by decide)
  refine ⟨_, _, ?_, (C144_any_order (logging_observes _)).2 ⟨_, h (.left (.right .nil)), rfl⟩,
    (C144_any_order (logging_observes _)).2 ⟨_, h (.right (.left .nil)), rfl⟩⟩
  simp

end Ieme
