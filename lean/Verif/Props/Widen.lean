import Verif.Lemmas.Widen

/-!
# Wider representations: property C100

`T.Within T'` says that every value of type `T` is a value of type `T'`.
-/

namespace Ieme

variable {T T' U U' L R L' R' : IntTy} {o : Ops} {f r : Raw} {n : ℤ} {b : Bool}

/-- **C100** A type is within another when it is no wider and has the same signedness, or when it
is unsigned, the other signed, and narrower. -/
theorem C100_within_iff : T.Within T' ↔
    (T.signed = T'.signed ∧ T.bits ≤ T'.bits) ∨
      (T.signed = false ∧ T'.signed = true ∧ T.bits < T'.bits) := by
  have w := T.wide
  have w' := T'.wide
  have q : (2 : ℤ) ^ (T'.bits) = 2 * 2 ^ (T'.bits - 1) := by rw [← pow_succ']; congr 1; omega
  have q' : (2 : ℤ) ^ (T.bits) = 2 * 2 ^ (T.bits - 1) := by rw [← pow_succ']; congr 1; omega
  have q0 : (0 : ℤ) < 2 ^ (T'.bits - 1) := by positivity
  have q1 : (0 : ℤ) < 2 ^ (T.bits - 1) := by positivity
  constructor
  · intro h
    have hb := h.bits_le
    have h1 := h.max_le
    have h2 := h.min_le
    unfold IntTy.max at h1
    unfold IntTy.min at h2
    push_cast at h1 h2
    cases hs : T.signed <;> cases hs' : T'.signed <;> simp only [hs, hs'] at h1 h2 ⊢
    · simp [hb]
    · refine .inr ⟨trivial, trivial, hb.lt_of_ne fun he => ?_⟩
      rw [he] at h1
      simp at h1
      omega
    · simp at h2
      omega
    · simp [hb]
  · rintro (⟨hs, hb⟩ | ⟨hs, hs', hb⟩) x hx
    · have p : (2 : ℤ) ^ (T.bits) ≤ 2 ^ (T'.bits) := pow_le_pow_right₀ (by decide) hb
      have p' : (2 : ℤ) ^ (T.bits - 1) ≤ 2 ^ (T'.bits - 1) :=
        pow_le_pow_right₀ (by decide) (by omega)
      simp only [IntTy.InRange, IntTy.max, IntTy.min, ← hs] at hx ⊢
      push_cast at hx ⊢
      split_ifs at hx ⊢ <;> omega
    · have p : (2 : ℤ) ^ (T.bits) ≤ 2 ^ (T'.bits - 1) := pow_le_pow_right₀ (by decide) (by omega)
      simp only [IntTy.InRange, IntTy.max, IntTy.min, hs, hs', Bool.false_eq_true, if_false,
        if_true] at hx ⊢
      push_cast at hx ⊢
      omega

example : i32.Within i64 ∧ u32.Within i64 ∧ u32.Within u64 ∧ ¬ i32.Within u64 ∧ ¬ u64.Within i64 := by
  simp only [C100_within_iff]; decide

/-- **C100** A binary operation that finishes cleanly gives the same parts in wider types. -/
theorem C100_operators (hc : (IntTy.common L R).Within (IntTy.common L' R')) {op : ArithOp}
    {a : Args} (ha : a.HaveTypes L R) (h : Fraction.arith L R o op a ⇓ r) :
    Fraction.arith L' R' o op a ⇓ r :=
  Fraction.arith_sim hc ha o op r h

example : (IntTy.common i32 i32).Within (IntTy.common i32 i64) ∧
    (Args.ff ⟨1, 2⟩ ⟨1, 3⟩).HaveTypes i32 i32 ∧
    Fraction.arith i32 i32 .safe .plus (.ff ⟨1, 2⟩ ⟨1, 3⟩) ⇓ ⟨5, 6⟩ :=
  ⟨C100_within_iff.2 (by decide), ⟨⟨by decide, by decide⟩, by decide, by decide⟩, by decide +kernel⟩

/-- **C100** The same for comparisons. -/
theorem C100_comparisons (hc : (IntTy.common L R).Within (IntTy.common L' R')) {op : CmpOp}
    {a : Args} (ha : a.HaveTypes L R) (h : Fraction.cmp L R o op a ⇓ b) :
    Fraction.cmp L' R' o op a ⇓ b :=
  Fraction.cmp_sim hc ha o op b h

/-- The types matter: `-1 < 1` is true for `int` and, after conversion to `unsigned`, false. -/
example : Fraction.cmp i32 i32 .safe .less (.fr ⟨-1, 1⟩ 1) ⇓ true ∧
    Fraction.cmp i32 u32 .safe .less (.fr ⟨-1, 1⟩ 1) = .ok false true ∧
    ¬ (IntTy.common i32 i32).Within (IntTy.common i32 u32) := by
  refine ⟨by decide +kernel, by decide +kernel, ?_⟩
  rw [C100_within_iff]; decide

/-- **C100** The same for whole expressions and for sequences of assignments. -/
theorem C100_expressions (h : T.Within T') :
    (∀ e : Expr, e.eval T o ⇓ r → e.eval T' o ⇓ r) ∧
    (∀ s : List Assign, Assign.run T o f s ⇓ r → Assign.run T' o f s ⇓ r) :=
  ⟨fun e => Expr.eval_sim h o e r, fun s => Assign.run_sim h o s f r⟩

example : i32.Within i64 ∧
    (Expr.ff .divides (.neg (.lit ⟨1, 2⟩)) (.fr .plus (.lit ⟨2, 3⟩) 5)).eval i32 .defaults ⇓
      ⟨-3, 34⟩ := ⟨C100_within_iff.2 (by decide), by decide +kernel⟩

/-- **C100** The same for the functions on one fraction. -/
theorem C100_functions (h : T.Within T') :
    (∀ mode, f.reduce T mode ⇓ r → f.reduce T' mode ⇓ r) ∧
    (f.normalizeSigns T ⇓ r → f.normalizeSigns T' ⇓ r) ∧
    (Fraction.neg T o f ⇓ r → Fraction.neg T' o f ⇓ r) ∧
    (Fraction.abs T o f ⇓ r → Fraction.abs T' o f ⇓ r) ∧
    (∀ mode, Fraction.toWhole T o f mode ⇓ n → Fraction.toWhole T' o f mode ⇓ n) ∧
    (∀ d mode, Fraction.redenominate T o f d mode ⇓ r → Fraction.redenominate T' o f d mode ⇓ r) ∧
    (∀ e, Fraction.pow2 T e ⇓ r → Fraction.pow2 T' e ⇓ r) ∧
    (∀ m e, Fraction.pow T m e ⇓ r → Fraction.pow T' m e ⇓ r) ∧
    (∀ N D, Fraction.ofRatio T N D ⇓ r → Fraction.ofRatio T' N D ⇓ r) :=
  ⟨fun m => Raw.reduce_sim h m f r, Raw.normalizeSigns_sim h f r, Ops.negate_sim h o f r,
    Fraction.abs_sim h o f r, fun m => Fraction.toWhole_sim h o f m n,
    fun d m => Fraction.redenominate_sim h o f d m r, fun e => Fraction.pow2_sim h e r,
    fun m e => Fraction.pow_sim h m e r, fun N D => Fraction.ofRatio_sim h N D r⟩

example : i32.Within i64 ∧ Raw.reduce i32 .normalizeSigns ⟨4, -6⟩ ⇓ ⟨-2, 3⟩ ∧
    Fraction.redenominate i32 .defaults ⟨2, 3⟩ 7 .round ⇓ ⟨5, 7⟩ ∧ Fraction.pow i32 3 (-4) ⇓ ⟨1, 81⟩ :=
  ⟨C100_within_iff.2 (by decide), by decide +kernel, by decide +kernel, by decide +kernel⟩

/-- **C100** The same for the queries that compute. -/
theorem C100_queries (h : T.Within T') :
    (f.isInteger T ⇓ b → f.isInteger T' ⇓ b) ∧ (f.isUnitFraction T ⇓ b → f.isUnitFraction T' ⇓ b) ∧
    (f.isReduced T ⇓ b → f.isReduced T' ⇓ b) ∧ (f.isProper T ⇓ b → f.isProper T' ⇓ b) ∧
    (f.isImproper T ⇓ b → f.isImproper T' ⇓ b) :=
  ⟨Raw.isInteger_sim h f b, Raw.isUnitFraction_sim h f b, Raw.isReduced_sim h f b,
    Raw.isProper_sim h f b, Raw.isImproper_sim h f b⟩

example : u32.Within i64 ∧ Raw.isUnitFraction u32 ⟨3, 12⟩ ⇓ true :=
  ⟨C100_within_iff.2 (by decide), by decide +kernel⟩

/-- **C100** The same for making, negating and converting mixed numbers. -/
theorem C100_mixed_numbers {m m' : Mixed} {S S' : IntTy} (h : T.Within T') (hu : U.Within U')
    (hs : S.Within S') :
    (Mixed.mk' T U o n f ⇓ m → Mixed.mk' T' U' o n f ⇓ m) ∧
    (Mixed.ofFraction T U o S f ⇓ m → Mixed.ofFraction T' U' o S' f ⇓ m) ∧
    (m'.neg T U o ⇓ m → m'.neg T' U' o ⇓ m) ∧
    ((IntTy.common T U).Within (IntTy.common T' U') →
      m.asFraction T U o ⇓ r → m.asFraction T' U' o ⇓ r) :=
  ⟨Mixed.mk_sim h hu o n f m, Mixed.ofFraction_sim h hu hs o f m, Mixed.neg_sim h hu o m' m,
    fun hc => Mixed.asFraction_sim hc o m r⟩

example : i32.Within i64 ∧ Mixed.mk' i32 i32 .defaults 2 ⟨-7, 3⟩ ⇓ ⟨0, ⟨-1, 3⟩⟩ :=
  ⟨C100_within_iff.2 (by decide), by decide +kernel⟩

/-- **C100** The same for sums with mixed numbers. -/
theorem C100_mixed_sums {W₁ W₂ F₁ F₂ W₁' W₂' F₁' F₂' : IntTy} {l g m : Mixed}
    (hw : (IntTy.common W₁ W₂).Within (IntTy.common W₁' W₂')) :
    ((IntTy.common F₁ F₂).Within (IntTy.common F₁' F₂') →
      Mixed.add W₁ F₁ W₂ F₂ o l g ⇓ m → Mixed.add W₁' F₁' W₂' F₂' o l g ⇓ m) ∧
    ((IntTy.common F₁ W₂).Within (IntTy.common F₁' W₂') → W₂.Within W₂' →
      Mixed.addFraction W₁ F₁ W₂ o l f ⇓ m → Mixed.addFraction W₁' F₁' W₂' o l f ⇓ m) ∧
    (F₁.Within F₁' → Mixed.addWhole W₁ F₁ W₂ o l n ⇓ m → Mixed.addWhole W₁' F₁' W₂' o l n ⇓ m) :=
  ⟨fun hf => Mixed.add_sim hw hf o l g m, fun hf hs => Mixed.addFraction_sim hw hf hs o l f m,
    fun hf => Mixed.addWhole_sim hw hf o l n m⟩

example : (IntTy.common i32 i32).Within (IntTy.common i32 i64) ∧
    Mixed.add i32 i32 i32 i32 .defaults ⟨1, ⟨1, 2⟩⟩ ⟨2, ⟨2, 3⟩⟩ ⇓ ⟨4, ⟨1, 6⟩⟩ :=
  ⟨C100_within_iff.2 (by decide), by decide +kernel⟩

/-- **C100** The same for literals and for floating-point numbers in both directions. -/
theorem C100_conversions {E : FloatingPoint.Endian} {G : Fmt} {k k' : ℕ} {s : List Char} {l : DenLit}
    (h : T.Within T') :
    (Parse.toFraction T o s ⇓ r → Parse.toFraction T' o s ⇓ r) ∧
    (FloatingPoint.toFraction E G T o k ⇓ r → FloatingPoint.toFraction E G T' o k ⇓ r) ∧
    (FloatingPoint.ofFraction G T f ⇓ k' → FloatingPoint.ofFraction G T' f ⇓ k') ∧
    (DenLit.divRep T n l ⇓ r → DenLit.divRep T' n l ⇓ r) ∧
    (DenLit.divFraction T o f l ⇓ r → DenLit.divFraction T' o f l ⇓ r) :=
  ⟨Parse.toFraction_sim h o s r, FloatingPoint.toFraction_sim h E G o k r,
    FloatingPoint.ofFraction_sim h G f k', DenLit.divRep_sim h n l r, DenLit.divFraction_sim h o f l r⟩

example : i32.Within i64 ∧ Parse.toFraction i32 .defaults "12.50".toList ⇓ ⟨25, 2⟩ ∧
    FloatingPoint.toFraction .little binary32 i32 .defaults 0xC0200000 ⇓ ⟨-5, 2⟩ :=
  ⟨C100_within_iff.2 (by decide), by decide +kernel, by decide +kernel⟩

/-- **C100** The same for durations. -/
theorem C100_durations {p q : Chrono.Period} {c d : Chrono.Count} (h : T.Within T') :
    (Chrono.convert T o p q c ⇓ r → Chrono.convert T' o p q c ⇓ r) ∧
    (∀ op, Chrono.arith T o op p q c d ⇓ r → Chrono.arith T' o op p q c d ⇓ r) ∧
    (∀ op, Chrono.cmp T o op p q c d ⇓ b → Chrono.cmp T' o op p q c d ⇓ b) :=
  ⟨Chrono.convert_sim h o p q c r, fun op => Chrono.arith_sim h o op p q c d r,
    fun op => Chrono.cmp_sim h o op p q c d b⟩

example : i32.Within i64 ∧
    Chrono.convert i32 .defaults ⟨1, 1000, by decide, by decide, by decide⟩
      ⟨60, 1, by decide, by decide, by decide⟩ (.int 500) ⇓ ⟨1, 120⟩ :=
  ⟨C100_within_iff.2 (by decide), by decide +kernel⟩

/-- Clean results only: one that wrapped changes with the type. -/
example : Fraction.arith u32 u32 .fast .minus (.ff ⟨1, 2⟩ ⟨1, 1⟩) = .ok ⟨2 ^ 32 - 1, 2⟩ true ∧
    Fraction.arith u64 u64 .fast .minus (.ff ⟨1, 2⟩ ⟨1, 1⟩) = .ok ⟨2 ^ 64 - 1, 2⟩ true := by
  decide +kernel

end Ieme
