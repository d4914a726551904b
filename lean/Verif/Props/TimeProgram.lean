import Verif.Lemmas.TimeProgram

/-!
# Programs over durations and time points: property C131
-/

namespace Ieme

open Res IntTy Chrono

variable {T T' : IntTy} {o : Ops} {Γ : ℕ → TimeTy} {σ σ' : ℕ → Count} {ρ ρ' : ℕ → ℚ}
  {e e1 e2 : TimeExpr} {τ : TimeTy} {c d : TimeCmd} {n : ℕ} {t u : ℚ}

/-- **C131** An expression over durations, time points and numbers that compiles and has a
meaning settles: in all signed types with enough bits it runs without overflow, to one and the
same object, which stands for its meaning. -/
theorem C131_expressions (hσ : Models Γ σ ρ) (ht : e.ty Γ = some τ) (hv : e.value Γ ρ = some t) :
    ∃ v, Settles (fun T => e.eval T o Γ σ) v ∧ τ.Has v ∧ Stands τ.shape v t := by
  obtain ⟨v, h⟩ := run_settles o hσ ht hv
  refine ⟨v, h.congr fun T => ?_, settled_facts hσ ht hv h⟩
  simp only [TimeExpr.eval, ht]

/-- **C131** So does a comparison, to the truth wherever the policy orders correctly. -/
theorem C131_comparisons {op : CmpOp} (hσ : Models Γ σ ρ) (hc : e1.comparable Γ e2 = true)
    (h1 : e1.value Γ ρ = some t) (h2 : e2.value Γ ρ = some u) :
    ∃ b, Settles (fun T => TimeExpr.compare T o Γ σ op e1 e2) b ∧
      ((op.IsOrder → o.SafeBased) → (b = true ↔ op.Holds t u)) := by
  obtain ⟨b, N, h⟩ := compare_settles o op hσ hc h1 h2
  refine ⟨b, ⟨N, h⟩, fun ho => ?_⟩
  exact C130_compare hσ ho h1 h2 (h ⟨true, max N 32, le_max_right _ _⟩ rfl (le_max_left _ _))

private theorem step (hσ : Models Γ σ ρ) {x : ℕ} {e : TimeExpr}
    (hok : (TimeCmd.assign x e).ok Γ = true) (hv : e.value Γ ρ = some t)
    (h : (TimeCmd.assign x e).exec T o Γ (n + 1) σ ⇓ some σ') :
    Models Γ σ' (Function.update ρ x t) := by
  simp only [TimeCmd.ok, Bool.and_eq_true] at hok
  obtain ⟨hx, hok⟩ := hok
  cases ht : e.ty Γ with
  | none => rw [ht] at hok; cases hok
  | some τ =>
    simp only [TimeCmd.exec, ht] at h
    obtain ⟨v, h1, h⟩ := bind_eq_clean.1 h
    obtain ⟨f, h2, h⟩ := bind_eq_clean.1 h
    simp only [pure_eq_ok, Option.some.injEq, and_true] at h
    subst h
    exact models_set hσ hx (assignCount_exact (C130_exact hσ ht hv h1) h2)

private theorem step' (hσ : Models Γ σ ρ) {x : ℕ} {e : TimeExpr} {op : ArithOp}
    (hok : (TimeCmd.update op x e).ok Γ = true)
    (hv : (TimeExpr.bin op (.var x) e).value Γ ρ = some t)
    (h : (TimeCmd.update op x e).exec T o Γ (n + 1) σ ⇓ some σ') :
    Models Γ σ' (Function.update ρ x t) := by
  simp only [TimeCmd.ok, Bool.and_eq_true] at hok
  obtain ⟨hx, hok⟩ := hok
  have hσx := hσ x
  cases ht : e.ty Γ with
  | none => rw [ht] at hok; cases hok
  | some τ =>
    rw [ht] at hok
    cases hf : σ x with
    | int k => rw [hf] at hσx; exact absurd (hσx.1.symm.trans hx) (by decide)
    | frac f =>
      rw [hf] at hσx
      simp only [TimeCmd.exec, ht, hf] at h
      obtain ⟨v, h1, h⟩ := bind_eq_clean.1 h
      obtain ⟨g, h2, h⟩ := bind_eq_clean.1 h
      simp only [pure_eq_ok, Option.some.injEq, and_true] at h
      subst h
      simp only [TimeExpr.value, Option.bind_some, Option.bind_eq_some_iff, TimeExpr.ty, ht] at hv
      obtain ⟨y, hy, hv⟩ := hv
      exact models_set hσ hx (updateCount_exact hok hσx.2 (C130_exact hσ ht hy h1) h2 hv)

private theorem not_zero (h : TimeCmd.exec T o Γ 0 c σ ⇓ some σ') : False := by
  simp [TimeCmd.exec, pure_def] at h

private theorem order {op : CmpOp} {P : Prop} (ho : o.SafeBased ∨ (¬ op.IsOrder ∧ P)) :
    op.IsOrder → o.SafeBased := fun hi => ho.elim id fun h => absurd hi h.1

/-- **C131** A program over durations, time points and numbers, with assignments, compound
assignments, branches and loops, that terminates over the rational numbers and whose run is free
of overflow ends with variables that stand for exactly the rational results. -/
theorem C131_exact (hr : TimeRuns Γ c ρ ρ') (hσ : Models Γ σ ρ) (hok : c.ok Γ = true)
    (ho : o.SafeBased ∨ c.OnlyEquality) (h : c.exec T o Γ n σ ⇓ some σ') : Models Γ σ' ρ' := by
  induction hr generalizing σ σ' n with
  | skip =>
    cases n with
    | zero => exact (not_zero h).elim
    | succ n => simp only [TimeCmd.exec, pure_eq_ok, Option.some.injEq, and_true] at h; exact h ▸ hσ
  | assign he =>
    cases n with
    | zero => exact (not_zero h).elim
    | succ n => exact step hσ hok he h
  | update he =>
    cases n with
    | zero => exact (not_zero h).elim
    | succ n => exact step' hσ hok he h
  | seq hc hd ihc ihd =>
    simp only [TimeCmd.ok, Bool.and_eq_true] at hok
    cases n with
    | zero => exact (not_zero h).elim
    | succ n =>
      simp only [TimeCmd.exec, bind_eq_clean] at h
      obtain ⟨r, h1, h2⟩ := h
      cases r with
      | none => simp [pure_def] at h2
      | some m1 =>
        exact ihd (ihc hσ hok.1 (ho.imp_right fun h => h.1) h1) hok.2
          (ho.imp_right fun h => h.2) h2
  | iteTrue h1 h2 hb hc ih =>
    simp only [TimeCmd.ok, Bool.and_eq_true] at hok
    cases n with
    | zero => exact (not_zero h).elim
    | succ n =>
      simp only [TimeCmd.exec, bind_eq_clean] at h
      obtain ⟨b, ht, h⟩ := h
      have := (C130_compare hσ (order ho) h1 h2 ht).2 hb
      rw [this, if_pos rfl] at h
      exact ih hσ hok.1.2 (ho.imp_right fun h => h.2.1) h
  | iteFalse h1 h2 hb hd ih =>
    simp only [TimeCmd.ok, Bool.and_eq_true] at hok
    cases n with
    | zero => exact (not_zero h).elim
    | succ n =>
      simp only [TimeCmd.exec, bind_eq_clean] at h
      obtain ⟨b, ht, h⟩ := h
      have := mt (C130_compare hσ (order ho) h1 h2 ht).1 hb
      rw [if_neg this] at h
      exact ih hσ hok.2 (ho.imp_right fun h => h.2.2) h
  | loopTrue h1 h2 hb hc hl ihc ihl =>
    have hok' := hok
    simp only [TimeCmd.ok, Bool.and_eq_true] at hok
    cases n with
    | zero => exact (not_zero h).elim
    | succ n =>
      simp only [TimeCmd.exec, bind_eq_clean] at h
      obtain ⟨b, ht, h⟩ := h
      have := (C130_compare hσ (order ho) h1 h2 ht).2 hb
      rw [this, if_pos rfl] at h
      simp only [bind_eq_clean] at h
      obtain ⟨r, g1, g2⟩ := h
      cases r with
      | none => simp [pure_def] at g2
      | some m1 => exact ihl (ihc hσ hok.2 (ho.imp_right fun h => h.2) g1) hok' ho g2
  | loopFalse h1 h2 hb =>
    cases n with
    | zero => exact (not_zero h).elim
    | succ n =>
      simp only [TimeCmd.exec, bind_eq_clean] at h
      obtain ⟨b, ht, h⟩ := h
      have := mt (C130_compare hσ (order ho) h1 h2 ht).1 hb
      rw [if_neg this] at h
      simp only [pure_eq_ok, Option.some.injEq, and_true] at h
      exact h ▸ hσ

/-- **C131** If the program terminates over the rational numbers, no run free of overflow goes on
forever, and how many steps are enough depends on the rational run only. -/
theorem C131_terminates (hr : TimeRuns Γ c ρ ρ') (hok : c.ok Γ = true) :
    ∃ N, ∀ (T : IntTy) (o : Ops) (σ : ℕ → Count), Models Γ σ ρ →
      (o.SafeBased ∨ c.OnlyEquality) → ∀ n ≥ N, ¬ (c.exec T o Γ n σ ⇓ none) := by
  induction hr with
  | skip =>
    refine ⟨1, fun T o σ _ _ n hn h => ?_⟩
    obtain ⟨n, rfl⟩ : ∃ k, n = k + 1 := ⟨n - 1, by omega⟩
    simp [TimeCmd.exec, pure_def] at h
  | assign he =>
    refine ⟨1, fun T o σ _ _ n hn h => ?_⟩
    obtain ⟨n, rfl⟩ : ∃ k, n = k + 1 := ⟨n - 1, by omega⟩
    simp only [TimeCmd.exec] at h
    split at h
    · simp [bind_eq_clean, pure_eq_ok, -bind_pure_comp] at h
    · cases h
  | update he =>
    refine ⟨1, fun T o σ _ _ n hn h => ?_⟩
    obtain ⟨n, rfl⟩ : ∃ k, n = k + 1 := ⟨n - 1, by omega⟩
    simp only [TimeCmd.exec] at h
    split at h
    · simp [bind_eq_clean, pure_eq_ok, -bind_pure_comp] at h
    · cases h
  | seq hc hd ihc ihd =>
    simp only [TimeCmd.ok, Bool.and_eq_true] at hok
    obtain ⟨N1, g1⟩ := ihc hok.1
    obtain ⟨N2, g2⟩ := ihd hok.2
    refine ⟨max N1 N2 + 1, fun T o σ hσ ho n hn h => ?_⟩
    obtain ⟨n, rfl⟩ : ∃ k, n = k + 1 := ⟨n - 1, by omega⟩
    simp only [TimeCmd.exec, bind_eq_clean] at h
    obtain ⟨r, h1, h2⟩ := h
    cases r with
    | none => exact g1 T o σ hσ (ho.imp_right fun h => h.1) n (by omega) h1
    | some m1 =>
      exact g2 T o m1 (C131_exact hc hσ hok.1 (ho.imp_right fun h => h.1) h1)
        (ho.imp_right fun h => h.2) n (by omega) h2
  | iteTrue h1 h2 hb hc ih =>
    simp only [TimeCmd.ok, Bool.and_eq_true] at hok
    obtain ⟨N, g⟩ := ih hok.1.2
    refine ⟨N + 1, fun T o σ hσ ho n hn h => ?_⟩
    obtain ⟨n, rfl⟩ : ∃ k, n = k + 1 := ⟨n - 1, by omega⟩
    simp only [TimeCmd.exec, bind_eq_clean] at h
    obtain ⟨b, ht, h⟩ := h
    have := (C130_compare hσ (order ho) h1 h2 ht).2 hb
    rw [this, if_pos rfl] at h
    exact g T o σ hσ (ho.imp_right fun h => h.2.1) n (by omega) h
  | iteFalse h1 h2 hb hd ih =>
    simp only [TimeCmd.ok, Bool.and_eq_true] at hok
    obtain ⟨N, g⟩ := ih hok.2
    refine ⟨N + 1, fun T o σ hσ ho n hn h => ?_⟩
    obtain ⟨n, rfl⟩ : ∃ k, n = k + 1 := ⟨n - 1, by omega⟩
    simp only [TimeCmd.exec, bind_eq_clean] at h
    obtain ⟨b, ht, h⟩ := h
    have := mt (C130_compare hσ (order ho) h1 h2 ht).1 hb
    rw [if_neg this] at h
    exact g T o σ hσ (ho.imp_right fun h => h.2.2) n (by omega) h
  | loopTrue h1 h2 hb hc hl ihc ihl =>
    have hok' := hok
    simp only [TimeCmd.ok, Bool.and_eq_true] at hok
    obtain ⟨N1, g1⟩ := ihc hok.2
    obtain ⟨N2, g2⟩ := ihl hok'
    refine ⟨max N1 N2 + 1, fun T o σ hσ ho n hn h => ?_⟩
    obtain ⟨n, rfl⟩ : ∃ k, n = k + 1 := ⟨n - 1, by omega⟩
    simp only [TimeCmd.exec, bind_eq_clean] at h
    obtain ⟨b, ht, h⟩ := h
    have := (C130_compare hσ (order ho) h1 h2 ht).2 hb
    rw [this, if_pos rfl] at h
    simp only [bind_eq_clean] at h
    obtain ⟨r, e1, e2⟩ := h
    cases r with
    | none => exact g1 T o σ hσ (ho.imp_right fun h => h.2) n (by omega) e1
    | some m1 =>
      exact g2 T o m1 (C131_exact hc hσ hok.2 (ho.imp_right fun h => h.2) e1) ho n (by omega) e2
  | loopFalse h1 h2 hb =>
    refine ⟨1, fun T o σ hσ ho n hn h => ?_⟩
    obtain ⟨n, rfl⟩ : ∃ k, n = k + 1 := ⟨n - 1, by omega⟩
    simp only [TimeCmd.exec, bind_eq_clean] at h
    obtain ⟨b, ht, h⟩ := h
    have := mt (C130_compare hσ (order ho) h1 h2 ht).1 hb
    rw [if_neg this] at h
    simp [pure_eq_ok] at h

/-- **C131** A program that compiles and terminates over the rational numbers completes in all
signed types with enough bits, given enough steps, always with the same objects, which stand for
the rational results. -/
theorem C131_completes (hr : TimeRuns Γ c ρ ρ') (hσ : Models Γ σ ρ) (hok : c.ok Γ = true)
    (ho : o.SafeBased ∨ c.OnlyEquality) :
    ∃ (n N : ℕ) (σ' : ℕ → Count), Models Γ σ' ρ' ∧ ∀ T : IntTy, T.signed = true → N ≤ T.bits →
      ∀ k ≥ n, c.main T o Γ k σ ⇓ some σ' := by
  suffices ∃ (n N : ℕ) (σ' : ℕ → Count), Models Γ σ' ρ' ∧ ∀ T : IntTy, T.signed = true →
      N ≤ T.bits → ∀ k ≥ n, c.exec T o Γ k σ ⇓ some σ' by
    simpa only [TimeCmd.main, hok, if_true] using this
  induction hr generalizing σ with
  | skip =>
    refine ⟨1, 0, σ, hσ, fun T _ _ k hk => ?_⟩
    obtain ⟨k, rfl⟩ : ∃ j, k = j + 1 := ⟨k - 1, by omega⟩
    rfl
  | @assign ρ x e t he =>
    have hok' := hok
    simp only [TimeCmd.ok, Bool.and_eq_true] at hok'
    obtain ⟨hx, hok'⟩ := hok'
    cases ht : e.ty Γ with
    | none => rw [ht] at hok'; cases hok'
    | some τ =>
      rw [ht] at hok'
      obtain ⟨v, h1⟩ := run_settles o hσ ht he
      obtain ⟨-, hs⟩ := settled_facts hσ ht he h1
      obtain ⟨f, h2⟩ := assignCount_settles o hok' hs
      obtain ⟨N, h⟩ := Settles.bind (g := fun T v => assignCount T o (Γ x).shape τ.shape v >>=
        fun f => Pure.pure (some (setCount σ x f))) h1 (Settles.bind h2 (Settles.pure _))
      have fin : ∀ T : IntTy, T.signed = true → N ≤ T.bits → ∀ k,
          (TimeCmd.assign x e).exec T o Γ (k + 1) σ ⇓ some (setCount σ x f) := by
        intro T hs hb k
        have := h T hs hb
        simpa only [TimeCmd.exec, ht] using this
      refine ⟨1, N, _, step hσ hok he (fin ⟨true, max N 32, le_max_right _ _⟩ rfl
        (le_max_left _ _) 0), fun T hs hb k hk => ?_⟩
      obtain ⟨k, rfl⟩ : ∃ j, k = j + 1 := ⟨k - 1, by omega⟩
      exact fin T hs hb k
  | @update ρ op x e t he =>
    have hok' := hok
    simp only [TimeCmd.ok, Bool.and_eq_true] at hok'
    obtain ⟨hx, hok'⟩ := hok'
    have hσx := hσ x
    have hv := he
    simp only [TimeExpr.value, Option.bind_some, Option.bind_eq_some_iff] at hv
    obtain ⟨y, hy, hv⟩ := hv
    cases ht : e.ty Γ with
    | none => rw [ht] at hok'; cases hok'
    | some τ =>
      rw [ht] at hok'
      cases hf : σ x with
      | int k => rw [hf] at hσx; exact absurd (hσx.1.symm.trans hx) (by decide)
      | frac f =>
        rw [hf] at hσx
        obtain ⟨v, h1⟩ := run_settles o hσ ht hy
        obtain ⟨-, hs⟩ := settled_facts hσ ht hy h1
        obtain ⟨g, h2⟩ := updateCount_settles o hok' hσx.2 hs fun e => by
          have := op_value_ne hv e
          rw [if_pos e] at this
          exact left_ne_zero_of_mul this
        obtain ⟨N, h⟩ := Settles.bind (g := fun T v => updateCount T o op (Γ x).shape τ.shape f v >>=
          fun f => Pure.pure (some (setCount σ x f))) h1 (Settles.bind h2 (Settles.pure _))
        have fin : ∀ T : IntTy, T.signed = true → N ≤ T.bits → ∀ k,
            (TimeCmd.update op x e).exec T o Γ (k + 1) σ ⇓ some (setCount σ x g) := by
          intro T hs hb k
          have := h T hs hb
          simpa only [TimeCmd.exec, ht, hf] using this
        refine ⟨1, N, _, step' hσ hok he (fin ⟨true, max N 32, le_max_right _ _⟩ rfl
          (le_max_left _ _) 0), fun T hs hb k hk => ?_⟩
        obtain ⟨k, rfl⟩ : ∃ j, k = j + 1 := ⟨k - 1, by omega⟩
        exact fin T hs hb k
  | seq hc hd ihc ihd =>
    simp only [TimeCmd.ok, Bool.and_eq_true] at hok
    obtain ⟨n1, N1, σ1, m1, g1⟩ := ihc hσ hok.1 (ho.imp_right fun h => h.1)
    obtain ⟨n2, N2, σ2, m2, g2⟩ := ihd m1 hok.2 (ho.imp_right fun h => h.2)
    refine ⟨max n1 n2 + 1, max N1 N2, σ2, m2, fun T hs hb k hk => ?_⟩
    obtain ⟨k, rfl⟩ : ∃ j, k = j + 1 := ⟨k - 1, by omega⟩
    simp only [TimeCmd.exec, g1 T hs (by omega) k (by omega), ok_bind_false]
    exact g2 T hs (by omega) k (by omega)
  | iteTrue h1 h2 hb hc ih =>
    simp only [TimeCmd.ok, Bool.and_eq_true] at hok
    obtain ⟨n1, N1, σ1, m1, g1⟩ := ih hσ hok.1.2 (ho.imp_right fun h => h.2.1)
    obtain ⟨b, ⟨N2, g2⟩, hbt⟩ := C131_comparisons (o := o) hσ hok.1.1 h1 h2
    have hb' := (hbt (order ho)).2 hb
    refine ⟨n1 + 1, max N1 N2, σ1, m1, fun T hs hT k hk => ?_⟩
    obtain ⟨k, rfl⟩ : ∃ j, k = j + 1 := ⟨k - 1, by omega⟩
    simp only [TimeCmd.exec, g2 T hs (by omega), ok_bind_false, hb', if_true]
    exact g1 T hs (by omega) k (by omega)
  | iteFalse h1 h2 hb hc ih =>
    simp only [TimeCmd.ok, Bool.and_eq_true] at hok
    obtain ⟨n1, N1, σ1, m1, g1⟩ := ih hσ hok.2 (ho.imp_right fun h => h.2.2)
    obtain ⟨b, ⟨N2, g2⟩, hbt⟩ := C131_comparisons (o := o) hσ hok.1.1 h1 h2
    have hb' := mt (hbt (order ho)).1 hb
    refine ⟨n1 + 1, max N1 N2, σ1, m1, fun T hs hT k hk => ?_⟩
    obtain ⟨k, rfl⟩ : ∃ j, k = j + 1 := ⟨k - 1, by omega⟩
    simp only [TimeCmd.exec, g2 T hs (by omega), ok_bind_false, hb']
    exact g1 T hs (by omega) k (by omega)
  | loopTrue h1 h2 hb hc hl ihc ihl =>
    have hok' := hok
    simp only [TimeCmd.ok, Bool.and_eq_true] at hok
    obtain ⟨n1, N1, σ1, m1, g1⟩ := ihc hσ hok.2 (ho.imp_right fun h => h.2)
    obtain ⟨n2, N2, σ2, m2, g2⟩ := ihl m1 hok' ho
    obtain ⟨b, ⟨N3, g3⟩, hbt⟩ := C131_comparisons (o := o) hσ hok.1 h1 h2
    have hb' := (hbt (order ho)).2 hb
    refine ⟨max n1 n2 + 1, max N1 (max N2 N3), σ2, m2, fun T hs hT k hk => ?_⟩
    obtain ⟨k, rfl⟩ : ∃ j, k = j + 1 := ⟨k - 1, by omega⟩
    simp only [TimeCmd.exec, g3 T hs (by omega), ok_bind_false, hb', if_true,
      g1 T hs (by omega) k (by omega)]
    exact g2 T hs (by omega) k (by omega)
  | loopFalse h1 h2 hb =>
    simp only [TimeCmd.ok, Bool.and_eq_true] at hok
    obtain ⟨b, ⟨N3, g3⟩, hbt⟩ := C131_comparisons (o := o) hσ hok.1 h1 h2
    have hb' := mt (hbt (order ho)).1 hb
    refine ⟨1, N3, σ, hσ, fun T hs hT k hk => ?_⟩
    obtain ⟨k, rfl⟩ : ∃ j, k = j + 1 := ⟨k - 1, by omega⟩
    simp only [TimeCmd.exec, g3 T hs hT, ok_bind_false, hb']
    rfl

/-- **C131** Every variable keeps its type. -/
theorem C131_typed {w : Bool} (hσ : ∀ x, (Γ x).Has (σ x)) (hok : c.ok Γ = true)
    (h : c.exec T o Γ n σ = .ok (some σ') w) : ∀ x, (Γ x).Has (σ' x) := by
  have set : ∀ {x : ℕ} {f : Raw}, (Γ x).frac = true → ∀ y, (Γ y).Has (setCount σ x f y) := by
    intro x f hx y
    by_cases e : y = x
    · subst e; simp only [setCount, if_true]; exact hx
    · simp only [setCount, if_neg e]; exact hσ y
  induction n generalizing c σ σ' w with
  | zero => simp [TimeCmd.exec, pure_def] at h
  | succ n ih =>
    cases c with
    | skip =>
      simp only [TimeCmd.exec, pure_eq_ok, Option.some.injEq] at h
      exact h.1 ▸ hσ
    | assign x e =>
      simp only [TimeCmd.ok, Bool.and_eq_true] at hok
      simp only [TimeCmd.exec] at h
      split at h
      · obtain ⟨v, _, _, -, h, -⟩ := bind_eq_ok.1 h
        obtain ⟨f, _, _, -, h, -⟩ := bind_eq_ok.1 h
        simp only [pure_eq_ok, Option.some.injEq] at h
        exact h.1 ▸ set hok.1
      · cases h
    | update op x e =>
      simp only [TimeCmd.ok, Bool.and_eq_true] at hok
      simp only [TimeCmd.exec] at h
      split at h
      · obtain ⟨v, _, _, -, h, -⟩ := bind_eq_ok.1 h
        obtain ⟨f, _, _, -, h, -⟩ := bind_eq_ok.1 h
        simp only [pure_eq_ok, Option.some.injEq] at h
        exact h.1 ▸ set hok.1
      · cases h
    | seq c d =>
      simp only [TimeCmd.ok, Bool.and_eq_true] at hok
      simp only [TimeCmd.exec] at h
      obtain ⟨r, _, _, h1, h2, -⟩ := bind_eq_ok.1 h
      cases r with
      | none => simp [pure_def] at h2
      | some σ1 =>
        have := ih hσ hok.1 h1 set
        refine ih this hok.2 h2 fun {x f} hx y => ?_
        by_cases e : y = x
        · subst e; simp only [setCount, if_true]; exact hx
        · simp only [setCount, if_neg e]; exact this y
    | ite op e1 e2 c d =>
      simp only [TimeCmd.ok, Bool.and_eq_true] at hok
      simp only [TimeCmd.exec] at h
      obtain ⟨b, _, _, -, h, -⟩ := bind_eq_ok.1 h
      split at h
      · exact ih hσ hok.1.2 h set
      · exact ih hσ hok.2 h set
    | loop op e1 e2 c =>
      have hok' := hok
      simp only [TimeCmd.ok, Bool.and_eq_true] at hok
      simp only [TimeCmd.exec] at h
      obtain ⟨b, _, _, -, h, -⟩ := bind_eq_ok.1 h
      split at h
      · obtain ⟨r, _, _, h1, h2, -⟩ := bind_eq_ok.1 h
        cases r with
        | none => simp [pure_def] at h2
        | some σ1 =>
          have := ih hσ hok.2 h1 set
          refine ih this hok' h2 fun {x f} hx y => ?_
          by_cases e : y = x
          · subst e; simp only [setCount, if_true]; exact hx
          · simp only [setCount, if_neg e]; exact this y
      · simp only [pure_eq_ok, Option.some.injEq] at h
        exact h.1 ▸ hσ

/-- **C131** The compiler rejects a program exactly when the static check does: no run of what
compiles meets an operation that does not exist. -/
theorem C131_rejected_iff (hσ : ∀ x, (Γ x).Has (σ x)) :
    c.main T o Γ n σ = .fault .illFormed ↔ c.ok Γ = false := by
  unfold TimeCmd.main
  cases hok : c.ok Γ with
  | false => simp
  | true =>
    simp only [if_true, Bool.true_eq_false, iff_false]
    suffices (c.exec T o Γ n σ).NoThrow from fun he => (this _ he).2 rfl
    induction n generalizing c σ with
    | zero => exact NoThrow.pure _
    | succ n ih =>
      cases c with
      | skip => exact NoThrow.pure _
      | assign x e =>
        simp only [TimeCmd.ok, Bool.and_eq_true] at hok
        obtain ⟨hx, hok⟩ := hok
        cases ht : e.ty Γ with
        | none => rw [ht] at hok; cases hok
        | some τ =>
          rw [ht] at hok
          simp only [TimeCmd.exec, ht]
          refine noThrow_bind (run_noThrow hσ ht) fun v w hv => ?_
          exact NoThrow.bind (assignCount_noThrow hok) fun _ => NoThrow.pure _
      | update op x e =>
        simp only [TimeCmd.ok, Bool.and_eq_true] at hok
        obtain ⟨hx, hok⟩ := hok
        have hσx := hσ x
        cases ht : e.ty Γ with
        | none => rw [ht] at hok; cases hok
        | some τ =>
          rw [ht] at hok
          cases hf : σ x with
          | int k => rw [hf] at hσx; exact absurd (hσx.symm.trans hx) (by decide)
          | frac f =>
            simp only [TimeCmd.exec, ht, hf]
            refine noThrow_bind (run_noThrow hσ ht) fun v w hv => ?_
            exact NoThrow.bind (updateCount_noThrow hok) fun _ => NoThrow.pure _
      | seq c d =>
        simp only [TimeCmd.ok, Bool.and_eq_true] at hok
        refine noThrow_bind (ih hσ hok.1) fun r w h1 => ?_
        cases r with
        | none => exact NoThrow.pure _
        | some σ1 => exact ih (C131_typed hσ hok.1 h1) hok.2
      | ite op e1 e2 c d =>
        simp only [TimeCmd.ok, Bool.and_eq_true] at hok
        refine NoThrow.bind (compare_noThrow hσ hok.1.1) fun b => ?_
        split
        · exact ih hσ hok.1.2
        · exact ih hσ hok.2
      | loop op e1 e2 c =>
        have hok' := hok
        simp only [TimeCmd.ok, Bool.and_eq_true] at hok
        refine NoThrow.bind (compare_noThrow hσ hok.1) fun b => ?_
        split
        · refine noThrow_bind (ih hσ hok.2) fun r w h1 => ?_
          cases r with
          | none => exact NoThrow.pure _
          | some σ1 => exact ih (C131_typed hσ hok.2 h1) hok'
        · exact NoThrow.pure _

/-- **C131** A wider representation never changes the results of a run. -/
theorem C131_widen (hT : T.Within T') {r : Option (ℕ → Count)} (h : c.exec T o Γ n σ ⇓ r) :
    c.exec T' o Γ n σ ⇓ r :=
  exec_sim hT n c σ r h

/-- **C131** The choice of the epoch does not matter: when all time points are moved by the same
time, the program takes the same branches and ends with the same durations and numbers and with
time points moved by it. -/
theorem C131_epoch (s : ℚ) (hr : TimeRuns Γ c ρ ρ') (hok : c.ok Γ = true) :
    TimeRuns Γ c (moved Γ ρ s) (moved Γ ρ' s) := by
  have cmp : ∀ {e1 e2 : TimeExpr} {ρ : ℕ → ℚ} {t u : ℚ}, e1.comparable Γ e2 = true →
      e1.value Γ ρ = some t → e2.value Γ ρ = some u → ∃ k, e1.value Γ (moved Γ ρ s) = some (t + k) ∧
        e2.value Γ (moved Γ ρ s) = some (u + k) := by
    intro e1 e2 ρ t u hc h1 h2
    obtain ⟨a, b, s1, s2, p, q, c, ha, hb, -, -, hs⟩ := comparable_iff.1 hc
    rw [C130_epoch s ha, C130_epoch s hb, h1, h2]
    rcases hs with ⟨rfl, rfl⟩ | ⟨rfl, rfl⟩
    · exact ⟨0, by simp, by simp⟩
    · exact ⟨s, rfl, rfl⟩
  have shift : ∀ {op : CmpOp} {t u : ℚ} (k : ℚ), op.Holds (t + k) (u + k) ↔ op.Holds t u := by
    intro op t u k
    cases op <;> simp [CmpOp.Holds]
  induction hr with
  | skip => exact .skip
  | @assign ρ x e t he =>
    simp only [TimeCmd.ok, Bool.and_eq_true] at hok
    cases ht : e.ty Γ with
    | none => rw [ht] at hok; cases hok.2
    | some τ =>
      rw [ht] at hok
      have := C130_epoch (ρ := ρ) s ht
      rw [he, Option.map_some] at this
      rw [moved_update]
      convert TimeRuns.assign (x := x) this using 2
      rcases assignable_unit hok.2 with ⟨h1, h2⟩ | ⟨p, q, -, ⟨h1, h2⟩ | ⟨h1, h2⟩⟩ <;>
        rw [h1, h2]
  | @update ρ op x e t he =>
    simp only [TimeCmd.ok, Bool.and_eq_true] at hok
    cases ht : e.ty Γ with
    | none => rw [ht] at hok; cases hok.2
    | some τ =>
      rw [ht] at hok
      have hv := he
      simp only [TimeExpr.value, Option.bind_some, Option.bind_eq_some_iff] at hv
      obtain ⟨y, hy, hv⟩ := hv
      have := C130_epoch (ρ := ρ) s ht
      rw [hy, Option.map_some] at this
      rw [moved_update]
      refine TimeRuns.update ?_
      simp only [TimeExpr.value, this, Option.bind_some]
      have hu := hok.2
      simp only [moved]
      simp only [TimeExpr.ty, ht] at hv ⊢
      obtain ⟨b, s2⟩ := τ
      cases hs1 : (Γ x).shape <;> cases s2 <;> rw [hs1] at hu <;>
        simp only [Shape.updatable, Bool.false_eq_true] at hu
      · exact hv
      · exact hv
      · exact hv
      · cases op <;> simp only [Bool.false_eq_true] at hu <;>
          simp only [ArithOp.value, reduceCtorEq, if_false, Option.some.injEq] at hv ⊢ <;>
          linarith
  | seq hc hd ihc ihd =>
    simp only [TimeCmd.ok, Bool.and_eq_true] at hok
    exact .seq (ihc hok.1) (ihd hok.2)
  | iteTrue h1 h2 hb hc ih =>
    simp only [TimeCmd.ok, Bool.and_eq_true] at hok
    obtain ⟨k, k1, k2⟩ := cmp hok.1.1 h1 h2
    exact .iteTrue k1 k2 ((shift k).2 hb) (ih hok.1.2)
  | iteFalse h1 h2 hb hc ih =>
    simp only [TimeCmd.ok, Bool.and_eq_true] at hok
    obtain ⟨k, k1, k2⟩ := cmp hok.1.1 h1 h2
    exact .iteFalse k1 k2 (mt (shift k).1 hb) (ih hok.2)
  | loopTrue h1 h2 hb hc hl ihc ihl =>
    have hok' := hok
    simp only [TimeCmd.ok, Bool.and_eq_true] at hok
    obtain ⟨k, k1, k2⟩ := cmp hok.1 h1 h2
    exact .loopTrue k1 k2 ((shift k).2 hb) (ihc hok.2) (ihl hok')
  | loopFalse h1 h2 hb =>
    simp only [TimeCmd.ok, Bool.and_eq_true] at hok
    obtain ⟨k, k1, k2⟩ := cmp hok.1 h1 h2
    exact .loopFalse k1 k2 (mt (shift k).1 hb)

/-- **C131** Wherever `x = x op e` compiles, so does `x op= e`, and the two mean the same. -/
theorem C131_compound {op : ArithOp} {x : ℕ} :
    ((TimeCmd.assign x (.bin op (.var x) e)).ok Γ = true → (TimeCmd.update op x e).ok Γ = true) ∧
    (TimeRuns Γ (.assign x (.bin op (.var x) e)) ρ ρ' ↔ TimeRuns Γ (.update op x e) ρ ρ') := by
  refine ⟨fun h => ?_, fun h => ?_, fun h => ?_⟩
  · simp only [TimeCmd.ok, Bool.and_eq_true] at h ⊢
    refine ⟨h.1, ?_⟩
    have h := h.2
    cases ht : e.ty Γ with
    | none => simp only [TimeExpr.ty, ht, Bool.false_eq_true] at h
    | some τ =>
      simp only [TimeExpr.ty, ht] at h
      cases hr : TimeTy.result op (Γ x) τ with
      | none => rw [hr] at h; cases h
      | some υ =>
        rw [hr] at h
        obtain ⟨-, hu⟩ := result_frac hr
        exact updatable_of_result hu h
  · cases h with | assign he => exact .update he
  · cases h with | update he => exact .assign he

/-- **C131** A timer does not drift: `while (t < end) t += step;` with a positive step ends, and
with exactly the first of `t`, `t + step`, `t + 2 step`, … that is not before `end`. -/
theorem C131_timer {x y z : ℕ} (hxy : y ≠ x) (hxz : z ≠ x) (h0 : 0 < ρ z) :
    TimeRuns Γ (.loop .less (.var x) (.var y) (.update .plus x (.var z))) ρ
      (Function.update ρ x (ρ x + ρ z * ⌈(ρ y - ρ x) / ρ z⌉₊)) := by
  generalize hk : ⌈(ρ y - ρ x) / ρ z⌉₊ = k
  induction k generalizing ρ with
  | zero =>
    have : ¬ ρ x < ρ y := by
      have := Nat.ceil_eq_zero.1 hk
      intro hlt
      exact absurd this (not_le.2 (div_pos (sub_pos.2 hlt) h0))
    have e : Function.update ρ x (ρ x + ρ z * ((0 : ℕ) : ℚ)) = ρ := by
      simp
    rw [e]
    exact .loopFalse (t := ρ x) (u := ρ y) rfl rfl this
  | succ k ih =>
    have hlt : ρ x < ρ y := by
      by_contra hn
      have : (ρ y - ρ x) / ρ z ≤ 0 := div_nonpos_of_nonpos_of_nonneg (by linarith) h0.le
      rw [Nat.ceil_eq_zero.2 this] at hk
      cases hk
    refine .loopTrue (t := ρ x) (u := ρ y) rfl rfl hlt
      (ρ' := Function.update ρ x (ρ x + ρ z)) (.update ?_) ?_
    · simp [TimeExpr.value, ArithOp.value]
    · have h1 : Function.update ρ x (ρ x + ρ z) x = ρ x + ρ z := Function.update_self ..
      have h2 : Function.update ρ x (ρ x + ρ z) y = ρ y := Function.update_of_ne hxy ..
      have h3 : Function.update ρ x (ρ x + ρ z) z = ρ z := Function.update_of_ne hxz ..
      have := ih (ρ := Function.update ρ x (ρ x + ρ z)) (by rw [h3]; exact h0) (by
        rw [h1, h2, h3, show (ρ y - (ρ x + ρ z)) / ρ z = (ρ y - ρ x) / ρ z - 1 by
          field_simp; ring, Nat.ceil_sub_one, hk]
        rfl)
      rw [h1, h3, Function.update_idem] at this
      convert this using 2
      push_cast; ring

private def sec : Period := ⟨1, 1, by decide, by decide, by decide⟩
private def ms : Period := ⟨1, 1000, by decide, by decide, by decide⟩
private def frame : Period := ⟨1001, 30000, by decide, by decide, by decide⟩
private def atto : Period := ⟨1, 1000000000000000000, by decide, by decide, by decide⟩
private def odd : Period := ⟨1, 999999999999999999, by decide, by decide, by decide⟩

/-- **C131** (negation) The converse fails: `x += e` may compile where `x = x + e` does not,
since a conversion factor may fit where the common period does not. -/
theorem C131_compound_only : ¬ ∀ (Γ : ℕ → TimeTy) (x : ℕ) (e : TimeExpr),
    (TimeCmd.update .plus x e).ok Γ = true →
      (TimeCmd.assign x (.bin .plus (.var x) e)).ok Γ = true := by
  intro h
  have := h (fun x => ⟨true, .dur (if x = 0 then atto else odd)⟩) 0 (.var 1)
  revert this
  decide +kernel

/-- **C131** (negation) For `fast` the condition on the comparisons is needed: with a negative
denominator `if (x0 < x1) x2 = x1;` takes the wrong branch. -/
theorem C131_fast_wrong :
    let Γ : ℕ → TimeTy := fun _ => ⟨true, .dur sec⟩
    let c : TimeCmd := .ite .less (.var 0) (.var 1) (.assign 2 (.var 1)) .skip
    let σ : ℕ → Count := fun x => .frac (if x = 0 then ⟨1, -2⟩ else if x = 1 then ⟨0, 1⟩ else ⟨5, 1⟩)
    let ρ : ℕ → ℚ := fun x => if x = 0 then -1 / 2 else if x = 1 then 0 else 5
    Models Γ σ ρ ∧ TimeRuns Γ c ρ (Function.update ρ 2 0) ∧ c.ok Γ = true ∧
    c.exec i32 .fast Γ 2 σ ⇓ some σ ∧ ¬ Models Γ σ (Function.update ρ 2 0) := by
  have e : sec.seconds = 1 := by norm_num [Period.seconds, sec]
  refine ⟨fun x => ⟨rfl, ?_⟩, ?_, by decide +kernel, ?_, fun h => ?_⟩
  · simp only [Stands, Shape.unit, e, div_one]
    show Denotes _ _
    split
    · norm_num [Denotes]
    · split <;> norm_num [Denotes]
  · refine .iteTrue (t := -1 / 2) (u := 0) rfl rfl (by norm_num [CmpOp.Holds]) (.assign rfl)
  · have : TimeExpr.compare i32 .fast (fun _ => ⟨true, .dur sec⟩)
        (fun x => .frac (if x = 0 then ⟨1, -2⟩ else if x = 1 then ⟨0, 1⟩ else ⟨5, 1⟩)) .less
        (.var 0) (.var 1) ⇓ false := by decide +kernel
    simp only [TimeCmd.exec, this, ok_bind_false]
    rfl
  · have := (h 2).2
    simp only [Stands, Shape.unit, e, div_one, Function.update_self] at this
    have : Denotes ⟨5, 1⟩ 0 := this
    norm_num [Denotes] at this

/-- Variables for the example: `x0` a fractional time point in milliseconds, `x1` one of the
standard library in seconds, `x2` a duration in frames, `x3` an integer. -/
private def ctx : ℕ → TimeTy
  | 0 => ⟨true, .tp ms⟩
  | 1 => ⟨false, .tp sec⟩
  | 2 => ⟨true, .dur frame⟩
  | _ => ⟨false, .num⟩

private def vals : ℕ → Count
  | 0 => .frac ⟨25025, 2⟩
  | 1 => .int 13
  | 2 => .frac ⟨5, 2⟩
  | _ => .int 3

private def means : ℕ → ℚ
  | 0 => 1001 / 80
  | 1 => 13
  | 2 => 1001 / 12000
  | _ => 3

private theorem example_models : Models ctx vals means := fun
  | 0 => ⟨rfl, by norm_num [Stands, ctx, vals, means, Count.Is, Denotes, Shape.unit,
      Period.seconds, ms]⟩
  | 1 => ⟨rfl, by norm_num [Stands, ctx, vals, means, Count.Is, Shape.unit, Period.seconds, sec]⟩
  | 2 => ⟨rfl, by norm_num [Stands, ctx, vals, means, Count.Is, Denotes, Shape.unit,
      Period.seconds, frame]⟩
  | _ + 3 => ⟨rfl, show ((3 : ℤ) : ℚ) = 3 / 1 by norm_num⟩

/-- `while (x0 < x1) x0 += x2;` -/
private def timer : TimeCmd := .loop .less (.var 0) (.var 1) (.update .plus 0 (.var 2))

private theorem timer_runs :
    TimeRuns ctx timer means (Function.update means 0 (13013 / 1000)) := by
  have := C131_timer (Γ := ctx) (ρ := means) (x := 0) (y := 1) (z := 2) (by decide) (by decide)
    (by norm_num [means])
  have k : ⌈(means 1 - means 0) / means 2⌉₊ = 6 := by
    rw [Nat.ceil_eq_iff (by decide)]
    norm_num [means]
  rw [k, show means 0 + means 2 * ((6 : ℕ) : ℚ) = 13013 / 1000 by norm_num [means]] at this
  exact this

/-- The timer ends at 13.013 s after six steps, in 32 bits and in 64. -/
example : Models ctx vals means ∧ timer.ok ctx = true ∧
    TimeRuns ctx timer means (Function.update means 0 (13013 / 1000)) ∧
    Ops.defaults.SafeBased ∧ i32.Within i64 ∧
    (timer.exec i32 .defaults ctx 8 vals).bind (fun r => pure (r.map fun σ => σ 0)) ⇓
      some (.frac ⟨13013, 1⟩) ∧
    (timer.exec i64 .defaults ctx 8 vals).bind (fun r => pure (r.map fun σ => σ 0)) ⇓
      some (.frac ⟨13013, 1⟩) := by
  exact ⟨example_models, by decide +kernel, timer_runs, trivial,
    fun x h => ⟨by have := h.1; simp [IntTy.min, i32, i64] at *; omega,
      by have := h.2; simp [IntTy.max, i32, i64] at *; omega⟩,
    by decide +kernel, by decide +kernel⟩

/-- With every time point moved by a day the timer ends a day later. -/
example : TimeRuns ctx timer (moved ctx means 86400)
    (moved ctx (Function.update means 0 (13013 / 1000)) 86400) ∧
    moved ctx (Function.update means 0 (13013 / 1000)) 86400 0 = 86413013 / 1000 := by
  refine ⟨C131_epoch 86400 timer_runs (by decide +kernel), ?_⟩
  norm_num [moved, ctx]

/-- Expressions and comparisons that do not fit 32 bits: `x2 * x3` for a count of `715827883`. -/
example :
    let σ : ℕ → Count := fun x => if x = 2 then .frac ⟨715827883, 1⟩ else vals x
    (TimeExpr.bin .multiplies (.var 2) (.var 3)).eval i32 .defaults ctx σ = .fault .overflow ∧
    (TimeExpr.bin .multiplies (.var 2) (.var 3)).eval i64 .defaults ctx σ ⇓
      .frac ⟨2147483649, 1⟩ ∧
    (TimeExpr.var 0).comparable ctx (.var 1) = true ∧
    TimeExpr.compare i64 .defaults ctx σ .less (.var 0) (.var 1) ⇓ true :=
  ⟨by decide +kernel, by decide +kernel, by decide +kernel, by decide +kernel⟩

/-- What compiles: `x2 *= x3;`, `x0 -= x2;`, `x2 = x0 - x1;`; and what does not: `x0 *= x3;`,
`x2 += x0;`, `x2 = x0;`, `x0 = x0 + x1;`. -/
example : (TimeCmd.update .multiplies 2 (.var 3)).ok ctx = true ∧
    (TimeCmd.update .minus 0 (.var 2)).ok ctx = true ∧
    (TimeCmd.assign 2 (.bin .minus (.var 0) (.var 1))).ok ctx = true ∧
    (TimeCmd.assign 0 (.bin .plus (.var 0) (.var 2))).ok ctx = true ∧
    (TimeCmd.update .multiplies 0 (.var 3)).ok ctx = false ∧
    (TimeCmd.update .plus 2 (.var 0)).ok ctx = false ∧
    (TimeCmd.assign 2 (.var 0)).ok ctx = false ∧
    (TimeCmd.assign 0 (.bin .plus (.var 0) (.var 1))).ok ctx = false := by decide +kernel

end Ieme
