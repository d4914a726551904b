import Verif.Lemmas.Init
import Verif.Lemmas.TypedExpr

/-!
# Conversions that compile and what they preserve: property C136
-/

namespace Ieme

open Res IntTy Init

variable {S X A B : Ty} {T U W F : IntTy} {o o' : Ops} {v w : Val} {q : ℚ} {n : ℤ} {form : Form}

/-- **C136** `X x = y;` compiles exactly for the implicit conversions of the table. -/
theorem C136_implicit_iff (hX : X ≠ .flt) : Compiles .copy S X ↔ Implicit S X := by
  constructor
  · rintro ⟨f, i, h⟩
    simp only [resolve, implicit_eq] at h
    split_ifs at h with e
    · subst e; exact .refl _
    cases S <;> cases X <;> simp at h hX <;> first | constructor | skip
    all_goals
      split_ifs at h with e'
      first | subst e' | obtain ⟨rfl, rfl⟩ := e'
      constructor
  · intro h
    cases h <;> simp only [Compiles, resolve, implicit_eq] <;> split_ifs <;> simp_all

example : Compiles .copy (.mixed i32 i64 .safe) (.frac i64 .safe) ∧ Ty.frac i64 .safe ≠ .flt ∧
    implicit (.mixed i32 i64 .safe) (.frac i32 .safe) = .noViable ∧
    implicit (.frac i64 .safe) (.frac i32 .fast) = .noViable :=
  ⟨⟨.toFraction, none, by decide⟩, by decide, by decide, by decide⟩

/-- **C136** `X x(y);` compiles exactly for these, for raw fractions of another representation and
for fractions of another policy. -/
theorem C136_direct_iff (hX : X ≠ .flt) : Compiles .paren S X ↔ Explicit S X := by
  constructor
  · rintro ⟨f, i, h⟩
    simp only [resolve, direct_eq] at h
    split_ifs at h with e
    · subst e; exact .implicit (.refl _)
    cases S <;> cases X <;> simp at h hX
    all_goals first
      | exact .implicit (by constructor)
      | exact .rawFrac _ _ _
      | exact .fracFrac _ _ _ _
      | exact .fracMixed _ _ _ _ _
      | skip
    split_ifs at h with e'
    obtain ⟨rfl, rfl⟩ := e'
    exact .implicit (by constructor)
  · intro h
    cases h with
    | implicit h =>
      cases h <;> simp only [Compiles, resolve, direct_eq] <;> split_ifs <;> simp_all
    | _ => simp only [Compiles, resolve, direct_eq] <;> split_ifs <;> simp_all

example : Compiles .paren (.frac i64 .safe) (.mixed i32 i32 .fast) ∧
    Compiles .paren (.raw i64) (.frac i32 .safe) ∧
    implicit (.raw i64) (.frac i32 .safe) = .noViable ∧
    direct (.mixed i32 i32 .safe) (.frac i64 .safe) = .noViable :=
  ⟨⟨.mixedOps, none, by decide⟩, ⟨.fracRaw, some (.rawOther, .raw i32), by decide⟩, by decide,
    by decide⟩

/-- **C136** No initialisation is ambiguous. -/
theorem C136_unambiguous (form : Form) (S X : Ty) : resolve form S X ≠ .ambiguous := by
  have hd : direct S X ≠ .ambiguous := by
    rw [direct_eq]
    split_ifs
    · simp
    cases S <;> cases X <;> simp <;> split_ifs <;> simp
  cases form
  · simp only [resolve, implicit_eq]
    split_ifs
    · simp
    cases S <;> cases X <;> simp <;> split_ifs <;> simp
  · exact hd
  · simp only [resolve, braced]
    split
    · split
      · split <;> simp
      · simp
    · exact hd

/-- **C136** The forms agree: whatever compiles without parentheses or with braces has the same
outcome as with parentheses, for every value. -/
theorem C136_same_result (h : Compiles form S X) (v : Val) :
    init form S X v = init .paren S X v := by
  obtain ⟨f, i, h⟩ := h
  cases form
  · simp only [resolve] at h
    simp only [init, resolve, h]
    obtain ⟨rfl, h' | ⟨rfl, h'⟩⟩ := implicit_direct h <;> rw [h']
    exact (bind_pure _).symm
  · rfl
  · simp only [resolve] at h
    simp only [init, resolve, h]
    have : direct S X = .calls f i := by
      unfold braced at h
      split at h
      · rename_i f' i' e
        rw [e]
        split at h
        · split_ifs at h; exact h
        · exact h
      · rename_i e
        exact absurd h (e _ _)
    rw [this]

example : Compiles .copy (.mixed i32 i32 .defaults) (.frac i32 .defaults) ∧
    init .copy (.mixed i32 i32 .defaults) (.frac i32 .defaults) (.mixed ⟨-1, ⟨-1, 2⟩⟩) ⇓
      .frac ⟨-3, 2⟩ :=
  ⟨⟨.toFraction, none, by decide⟩, by decide +kernel⟩

/-- **C136** An implicit conversion never changes the policy. -/
theorem C136_policy (hS : S.policy = some o) (hX : X.policy = some o')
    (h : Compiles .copy S X) : o = o' := by
  have : X ≠ .flt := by rintro rfl; cases hX
  cases (C136_implicit_iff this).1 h <;> simp_all [Ty.policy]

example : (Ty.mixed i32 i64 .fast).policy = some .fast ∧ (Ty.frac i64 .fast).policy = some .fast ∧
    Compiles .copy (.mixed i32 i64 .fast) (.frac i64 .fast) :=
  ⟨rfl, rfl, .toFraction, none, by decide⟩

/-- **C136** An initialisation from anything but a floating-point number has exactly the value of
its source, in every form and whatever the target, unless a part wraps. -/
theorem C136_value (hS : S ≠ .flt) (hv : Means S v q) (h : init form S X v ⇓ w) : Means X w q :=
  direct_means hS hv (C136_same_result (compiles_of_ok h) v ▸ h)

/-- **C136** So has any sequence of initialisations. -/
theorem C136_chain {l : List (Form × Ty)} (hS : S ≠ .flt) (hl : ∀ p ∈ l, p.2 ≠ .flt)
    (hv : Means S v q) (h : chain S v l ⇓ w) : Means (chainTy S l) w q := by
  induction l generalizing S v with
  | nil => obtain rfl := (pure_eq_ok.1 h).1; exact hv
  | cons p l ih =>
    obtain ⟨u, hu, h1⟩ := bind_eq_clean.1 h
    exact ih (hl p (by simp)) (fun p hp => hl p (by simp [hp])) (C136_value hS hv hu) h1

example : Means (.raw i64) (.raw ⟨-14, 4⟩) (-7 / 2) ∧
    chain (.raw i64) (.raw ⟨-14, 4⟩) [(.paren, .frac i32 .fast), (.paren, .mixed i32 i64 .defaults),
      (.copy, .frac i64 .defaults), (.brace, .frac i32 .defaults)] ⇓ .frac ⟨-7, 2⟩ :=
  ⟨⟨by decide, by norm_num⟩, by decide +kernel⟩

/-- **C136** What an integer initialises is free of wrap-around exactly when the integer is a value
of the integer type of the target. -/
theorem C136_integer_iff (hX : integerParam X = some T) (hn : U.InRange n)
    (hc : Compiles form (.int U) X) : (∃ w, init form (.int U) X (.int n) ⇓ w) ↔ T.InRange n := by
  simp only [C136_same_result hc]
  by_cases e : Ty.int U = X
  · subst e
    cases hX
    refine ⟨fun _ => hn, fun _ => ⟨.int n, ?_⟩⟩
    simp only [init, resolve, direct_eq, if_true]
    rfl
  rw [init_arith (.inr ⟨U, rfl⟩) hX e]
  constructor
  · rintro ⟨w, h⟩
    obtain ⟨m, hm, -⟩ := bind_eq_clean.1 h
    exact (conv_clean.1 hm).1
  · intro h
    exact ⟨_, bind_eq_clean.2 ⟨n, conv_clean.2 ⟨h, rfl⟩, rfl⟩⟩

example : integerParam (.mixed i32 i64 .safe) = some i32 ∧ i64.InRange 2147483648 ∧
    Compiles .copy (.int i64) (.mixed i32 i64 .safe) ∧
    init .copy (.int i64) (.mixed i32 i64 .safe) (.int 2147483648) =
      .ok (.mixed ⟨-2147483648, ⟨0, 1⟩⟩) true ∧
    init .copy (.int i64) (.mixed i32 i64 .safe) (.int (-7)) ⇓ .mixed ⟨-7, ⟨0, 1⟩⟩ :=
  ⟨rfl, by decide, ⟨.mixedWhole, none, by decide⟩, by decide +kernel, by decide +kernel⟩

/-- **C136** What a fraction or raw fraction initialises in another representation or policy is free
of wrap-around exactly when both parts are values of the new representation. -/
theorem C136_fraction_iff {A : IntTy} {r : Raw} (hS : rep S = some A) (hX : rep X = some T)
    (hc : Compiles form S X) (hv : parts v = some r) (hr : Valid S v) :
    (∃ w, init form S X v ⇓ w) ↔ r.InRange T := by
  simp only [C136_same_result hc]
  refine init_parts hS hX ?_ hv hr
  have hX' : X ≠ .flt := by rintro rfl; cases hX
  cases form
  · exact (C136_direct_iff hX').2 (.implicit ((C136_implicit_iff hX').1 hc))
  · exact hc
  · obtain ⟨f, i, h⟩ := hc
    refine ⟨f, i, ?_⟩
    simp only [resolve, braced] at h ⊢
    split at h
    · rename_i e
      rw [e]
      split at h
      · split_ifs at h; exact h
      · exact h
    · rename_i e
      exact absurd h (e _ _)

example : rep (.raw i64) = some i64 ∧ rep (.frac u32 .fast) = some u32 ∧
    Compiles .paren (.raw i64) (.frac u32 .fast) ∧ Valid (.raw i64) (.raw ⟨6, 4⟩) ∧
    init .paren (.raw i64) (.frac u32 .fast) (.raw ⟨6, 4⟩) ⇓ .frac ⟨6, 4⟩ ∧
    init .paren (.raw i64) (.frac u32 .fast) (.raw ⟨-6, 4⟩) = .ok (.frac ⟨4294967290, 4⟩) true :=
  ⟨rfl, rfl, ⟨.fracRaw, some (.rawOther, .raw u32), by decide⟩, ⟨by decide, by decide⟩,
    by decide +kernel, by decide +kernel⟩

/-- **C136** The policy of a fraction has no influence on what it initialises, nor on whether that
overflows. -/
theorem C136_source_policy {r : Raw} {A : IntTy} (hr : Valid (.frac A o) (.frac r)) :
    init .paren (.frac A o) X (.frac r) = init .paren (.frac A o') X (.frac r) := by
  have hc : Fraction.ofOther A r ⇓ r := Raw.conv_clean.2 ⟨hr, rfl⟩
  have key : ∀ o, init .paren (.frac A o) X (.frac r) = match X with
      | .frac T _ => (Fraction.ofOther T r >>= fun f => pure (.frac f))
      | .mixed W F o' => (Mixed.ofFraction W F o' A r >>= fun m => pure (.mixed m))
      | _ => .fault .illFormed := by
    intro o
    simp only [init, resolve, direct_eq]
    cases X with
    | frac T o1 =>
      by_cases h1 : Ty.frac A o = Ty.frac T o1
      · obtain ⟨rfl, rfl⟩ := Ty.frac.inj h1
        simp [run, hc]
        rfl
      · rw [if_neg h1]
        by_cases h2 : o = o1 <;> simp [h2, run]
    | mixed W F o1 => by_cases h2 : o = o1 <;> simp [h2, run, hc]
    | _ => simp
  rw [key, key]

example : Valid (.frac i64 .fast) (.frac ⟨-4294967297, 4294967296⟩) ∧
    init .paren (.frac i64 .fast) (.mixed i32 i64 .safe) (.frac ⟨-4294967297, 4294967296⟩) ⇓
      .mixed ⟨-1, ⟨-1, 4294967296⟩⟩ := ⟨⟨by decide, by decide⟩, by decide +kernel⟩

/-- **C136** With braces an integer initialises only what can hold all values of its type, so that
nothing ever wraps. -/
theorem C136_braces (hn : U.InRange n) (hc : Compiles .brace (.int U) X) (hX : X ≠ .flt) :
    ∃ w, init .brace (.int U) X (.int n) ⇓ w ∧ Means X w n := by
  have hm : Means (.int U) (.int n) (n : ℚ) := rfl
  obtain ⟨T, hT⟩ : ∃ T, integerParam X = some T := by
    have : Compiles .paren (.int U) X := by
      obtain ⟨f, i, h⟩ := hc
      simp only [resolve, braced] at h
      split at h
      · exact ⟨_, _, by assumption⟩
      · rename_i e
        exact absurd h (e _ _)
    cases (C136_direct_iff hX).1 this with
    | implicit h => cases h <;> exact ⟨_, rfl⟩
  have hr : T.InRange n := by
    obtain ⟨f, i, h⟩ := hc
    simp only [resolve, braced] at h
    split at h
    · rw [hT] at h
      simp only [narrows, fits, Bool.not_eq_true', Bool.and_eq_false_iff, decide_eq_false_iff_not,
        not_le] at h
      split_ifs at h with c
      push Not at c
      exact ⟨c.1.trans hn.1, hn.2.trans c.2⟩
    · rename_i e
      exact absurd h (e _ _)
  obtain ⟨w, hw⟩ := (C136_integer_iff hT hn hc).2 hr
  exact ⟨w, hw, C136_value (by simp) hm hw⟩

example : Compiles .brace (.int u32) (.frac i64 .safe) ∧
    braced (.int i64) (.frac i32 .safe) = .narrowing ∧
    braced (.int i32) (.mixed u64 i64 .safe) = .narrowing ∧
    braced .flt (.frac i32 .safe) = .narrowing :=
  ⟨⟨.fracRep, none, by decide⟩, by decide, by decide, by decide⟩

/-- **C136** A floating-point number loses its fraction when it initialises an integer, a fraction, a
mixed number or a literal; the behaviour is undefined when the rest is out of range. -/
theorem C136_floating_point {x : ℚ} (hX : integerParam X = some T) (hc : Compiles form .flt X) :
    (T.InRange (ratTrunc x) →
      ∃ w, init form .flt X (.flt (some x)) ⇓ w ∧ Means X w (ratTrunc x)) ∧
    (¬ T.InRange (ratTrunc x) → init form .flt X (.flt (some x)) = .fault .overflow) := by
  have e : Ty.flt ≠ X := by rintro rfl; cases hX
  rw [C136_same_result hc, init_arith (.inl rfl) hX e, toInt_flt]
  refine ⟨fun h => ⟨whole X (ratTrunc x), ?_, whole_means hX _⟩, fun h => ?_⟩
  · rw [if_pos h]; rfl
  · rw [if_neg h]; rfl

example : integerParam (.frac i32 .safe) = some i32 ∧ Compiles .copy .flt (.frac i32 .safe) ∧
    ratTrunc (-7 / 2) = -3 ∧
    init .copy .flt (.frac i32 .safe) (.flt (some (-7 / 2))) ⇓ .frac ⟨-3, 1⟩ ∧
    init .copy .flt (.frac u32 .safe) (.flt (some (-7 / 2))) = .fault .overflow :=
  ⟨rfl, ⟨.fracRep, none, by decide⟩, by decide +kernel, by decide +kernel, by decide +kernel⟩

/-- **C136** With braces a floating-point number initialises nothing of the library. -/
theorem C136_braces_floating_point (hc : Compiles .brace .flt X) : X = .flt := by
  by_contra hX
  obtain ⟨f, i, h⟩ := hc
  simp only [resolve, braced, direct_eq] at h
  rw [if_neg (Ne.symm hX)] at h
  cases X <;> simp [integerParam, narrows] at h hX

example : Compiles .brace .flt .flt ∧ Compiles .paren .flt (.lit true .safe) :=
  ⟨⟨.copy, none, by decide⟩, .litValue, none, by decide⟩

/-- **C136, refuted in general**: not every conversion that is implicit keeps the value.
`fraction<int> f = 0.5;` compiles and is zero; the class `mixed_number` does the same with `-2.75`.
With braces, which protect integers, `fraction<int>{g}` of a `fraction<long>` still wraps. -/
theorem C136_implicit_loses :
    init .copy .flt (.frac i32 .defaults) (.flt (some (1 / 2))) ⇓ .frac ⟨0, 1⟩ ∧
    init .copy .flt (.mixed i32 i32 .defaults) (.flt (some (-11 / 4))) ⇓ .mixed ⟨-2, ⟨0, 1⟩⟩ ∧
    init .brace (.frac i64 .defaults) (.frac i32 .defaults) (.frac ⟨4294967297, 4294967296⟩) =
      .ok (.frac ⟨1, 0⟩) true := by
  decide +kernel

/-- **C136, refuted in general**: conversions do not compose.  A `mixed_number<int>` converts
to `fraction<int>` and that to `fraction<long>`, both implicitly, but it does not convert to
`fraction<long>`, not even explicitly; nor does it to `mixed_number<long>`. -/
theorem C136_not_transitive :
    Compiles .copy (.mixed i32 i32 .defaults) (.frac i32 .defaults) ∧
    Compiles .copy (.frac i32 .defaults) (.frac i64 .defaults) ∧
    Compiles .copy (.frac i32 .defaults) (.mixed i64 i64 .defaults) ∧
    ¬ Compiles .paren (.mixed i32 i32 .defaults) (.frac i64 .defaults) ∧
    ¬ Compiles .paren (.mixed i32 i32 .defaults) (.mixed i64 i64 .defaults) := by
  refine ⟨⟨.toFraction, none, by decide⟩, ⟨.fracOther, none, by decide⟩,
    ⟨.mixedFrac, none, by decide⟩, ?_, ?_⟩ <;>
  · rintro ⟨f, i, h⟩
    simp only [resolve, direct_eq] at h
    rw [if_neg (by decide)] at h
    first
      | cases h
      | (dsimp only at h; rw [if_neg (by decide)] at h; cases h)

/-- **C136** Both types convert implicitly to their common type. -/
theorem C136_common_type_converts {C : Ty} (h : commonType A B = some C) (hC : C ≠ .flt) :
    Compiles .copy A C ∧ Compiles .copy B C := by
  unfold commonType at h
  have refl : ∀ Y, Compiles .copy Y Y := fun Y => ⟨.copy, none, by simp [resolve, implicit]⟩
  split_ifs at h with e
  · cases h; subst e; exact ⟨refl _, refl _⟩
  split at h
  · cases h
    exact ⟨(C136_implicit_iff (by simp)).2 (.intInt _ _), (C136_implicit_iff (by simp)).2 (.intInt _ _)⟩
  · cases h; exact absurd rfl hC
  · cases h; exact absurd rfl hC
  · split at h
    · cases h
    · cases h; exact ⟨⟨_, _, by assumption⟩, refl _⟩
    · cases h; exact ⟨refl _, ⟨_, _, by assumption⟩⟩
    · cases h

example : commonType (.frac i64 .safe) (.mixed i32 i32 .safe) = some (.mixed i32 i32 .safe) ∧
    Compiles .copy (.frac i64 .safe) (.mixed i32 i32 .safe) :=
  ⟨by decide, .mixedFrac, none, by decide⟩

/-- **C136** The common type does not depend on the order. -/
theorem C136_common_type_symm : commonType A B = commonType B A := by
  unfold commonType
  by_cases e : A = B
  · rw [if_pos e, if_pos e.symm, e]
  rw [if_neg e, if_neg (Ne.symm e)]
  generalize implicit A B = x
  generalize implicit B A = y
  cases A <;> cases B <;> first | rfl | (cases x <;> cases y <;> rfl) | skip
  rename_i S T
  exact congrArg (fun C => some (Ty.int C)) (Overload.common_symm S T)

/-- **C136** Common types: of an integer type and a class the class; of fractions (or of mixed
numbers, or of raw fractions) of different types none; of a mixed number and a fraction of the same
policy the mixed number, unless the mixed number converts to that fraction, when there is none. -/
theorem C136_common_type {W' F' : IntTy} {s : Bool} :
    commonType (.int U) (.frac T o) = some (.frac T o) ∧
    commonType (.int U) (.mixed W F o) = some (.mixed W F o) ∧
    commonType (.int U) (.lit s o) = some (.lit s o) ∧
    commonType (.frac U o) (.frac T o') = (if U = T ∧ o = o' then some (.frac T o') else none) ∧
    commonType (.mixed W F o) (.mixed W' F' o') =
      (if W = W' ∧ F = F' ∧ o = o' then some (.mixed W' F' o') else none) ∧
    commonType (.raw U) (.raw T) = (if U = T then some (.raw T) else none) ∧
    commonType (.raw U) (.frac T o) = (if U = T then some (.frac T o) else none) ∧
    commonType (.frac T o) (.mixed W F o') =
      if o = o' ∧ T ≠ IntTy.common W F then some (.mixed W F o') else none := by
  refine ⟨by simp [commonType, implicit_eq], by simp [commonType, implicit_eq],
    by simp [commonType, implicit_eq], ?_, ?_, ?_, ?_, ?_⟩
  · by_cases h : U = T ∧ o = o'
    · simp [commonType, h]
    · by_cases h1 : o = o'
      · have h2 : ¬ U = T := fun h2 => h ⟨h2, h1⟩
        simp [commonType, implicit_eq, h1, h2, Ne.symm h2]
      · simp [commonType, implicit_eq, h1, Ne.symm h1]
  · by_cases h : W = W' ∧ F = F' ∧ o = o'
    · simp [commonType, h]
    · have h' : ¬ (W' = W ∧ F' = F ∧ o' = o) := fun e => h ⟨e.1.symm, e.2.1.symm, e.2.2.symm⟩
      simp [commonType, implicit_eq, h, h']
  · by_cases h : U = T
    · simp [commonType, h]
    · simp [commonType, implicit_eq, h, eq_comm (a := T)]
  · by_cases h : U = T
    · simp [commonType, implicit_eq, h]
    · simp [commonType, implicit_eq, h]
  · by_cases h : o = o' <;> by_cases h1 : T = IntTy.common W F
    · simp [commonType, implicit_eq, h, h1]
    · simp [commonType, implicit_eq, h, h1, eq_comm (b := T)]
    · simp [commonType, implicit_eq, h, h1, eq_comm (a := o')]
    · simp [commonType, implicit_eq, h, h1, eq_comm (b := T)]

example : commonType (.frac i32 .safe) (.mixed i32 i32 .safe) = none ∧
    commonType (.mixed i32 i32 .safe) (.frac i64 .safe) = some (.mixed i32 i32 .safe) ∧
    commonType (.frac i32 .safe) (.frac i64 .safe) = none ∧
    commonType (.frac i32 .safe) (.int i64) = some (.frac i32 .safe) := by decide

end Ieme
