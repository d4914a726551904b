import Verif.Lemmas.TypedSettles
import Verif.Spec.TypedSign
import Verif.Props.Laws

/-!
# Lemmas about programs whose denominators stay positive
-/

namespace Ieme.Overload

open Res IntTy

variable {Γ : Decls} {m m' : Vars} {s s' : ℕ → ℚ} {e : VExpr} {t l r : Ty} {q x y p : ℚ} {u v w : Val}

section
variable {L R T W F W' F' S : IntTy} {o : Ops} {a : Args} {f g : Raw} {k k' k'' : Mixed} {n : ℤ}

theorem arith_upright {op : ArithOp} (hp : a.PosDen) (hop : op ≠ .divides)
    (h : Fraction.arith L R o op a ⇓ f) : 0 < f.den := by
  obtain ⟨a', h1, h2⟩ := bind_eq_clean.1 h
  rw [Fraction.toCommon_clean h1] at h2
  exact Ops.arith_posDen hp hop h2

theorem quotient_upright {op : ArithOp} (hp : a.PosDen) (ha : a.Denote x y) (hq : op.value x y = some q)
    (ho : op = .divides → 0 < y ∨ o.NormalizesOutput) (h : Fraction.arith L R o op a ⇓ f) :
    0 < f.den := by
  obtain ⟨a', h1, h2⟩ := bind_eq_clean.1 h
  rw [Fraction.toCommon_clean h1] at h2
  refine (C72_positive_denominator_iff hp ha h2).2 fun e => ?_
  subst e
  rcases ho rfl with hy | hn
  · exact .inl hy
  rcases lt_trichotomy y 0 with hy | hy | hy
  · exact .inr ⟨hy, hn⟩
  · simp [ArithOp.value, hy] at hq
  · exact .inl hy

theorem conv_upright (hp : 0 < f.den) (h : f.conv T ⇓ g) : 0 < g.den := by
  obtain ⟨-, rfl⟩ := Raw.conv_clean.1 h; exact hp

theorem fix_upright (hp : 0 < k.frac.den) (h : k.fix W F o ⇓ k') : 0 < k'.frac.den := by
  obtain ⟨k₁, h1, h2⟩ := bind_eq_clean.1 h
  have p1 : 0 < k₁.frac.den := by
    obtain ⟨i, -, h1⟩ := bind_eq_clean.1 h1
    split at h1
    · simp only [bind_eq_clean, pure_eq_ok, and_true] at h1
      obtain ⟨t, -, t', -, w, -, f, hf, rfl⟩ := h1
      rw [Fraction.assignR, if_pos rfl] at hf
      exact arith_upright (a := .fr _ _) hp (by simp) hf
    · obtain ⟨rfl, -⟩ := pure_eq_ok.1 h1; exact hp
  unfold Mixed.fixSigns at h2
  split_ifs at h2
  · simp only [bind_eq_clean, pure_eq_ok, and_true] at h2
    obtain ⟨w, -, f, hf, rfl⟩ := h2
    exact arith_upright (a := .rf _ _) p1 (by simp) hf
  · simp only [bind_eq_clean, pure_eq_ok, and_true] at h2
    obtain ⟨w, -, n, -, f, hf, rfl⟩ := h2
    exact arith_upright (a := .rf _ _) p1 (by simp) hf
  · obtain ⟨rfl, -⟩ := pure_eq_ok.1 h2; exact p1

theorem ofFraction_upright (hp : 0 < f.den) (h : Mixed.ofFraction W F o S f ⇓ k) :
    0 < k.frac.den := by
  simp only [Mixed.ofFraction, bind_eq_clean, pure_eq_ok, and_true] at h
  obtain ⟨t, -, w, -, w', -, d, hd, g, hg, rfl⟩ := h
  exact conv_upright (arith_upright (a := .fr _ _) hp (by simp) hd) hg

theorem asFraction_upright (hp : 0 < k.frac.den) (h : k.asFraction W F o ⇓ f) : 0 < f.den := by
  simp only [Mixed.asFraction, bind_eq_clean] at h
  obtain ⟨w, -, g, hg, h⟩ := h
  exact arith_upright (a := .rf _ _) (conv_upright hp hg) (by simp) h

theorem mixedAdd_upright (hp : 0 < k.frac.den) (hp' : 0 < k'.frac.den)
    (h : Mixed.add W F W' F' o k k' ⇓ k'') : 0 < k''.frac.den := by
  simp only [Mixed.add, bind_eq_clean] at h
  obtain ⟨a, -, b, -, c, -, f, hf, g, hg, d, hd, h⟩ := h
  exact fix_upright (k := ⟨c, d⟩) (arith_upright (a := .ff _ _) ⟨conv_upright hp hf, conv_upright hp' hg⟩
    (by simp) hd) h

theorem addFraction_upright (hp : 0 < k.frac.den) (hf : 0 < f.den)
    (h : Mixed.addFraction W F S o k f ⇓ k') : 0 < k'.frac.den := by
  obtain ⟨k₁, h1, h2⟩ := bind_eq_clean.1 h
  exact mixedAdd_upright hp (ofFraction_upright hf h1) h2

theorem addWhole_upright (hp : 0 < k.frac.den) (h : Mixed.addWhole W F S o k n ⇓ k') :
    0 < k'.frac.den := by
  simp only [Mixed.addWhole, bind_eq_clean] at h
  obtain ⟨a, -, b, -, c, -, h⟩ := h
  exact fix_upright (k := ⟨c, k.frac⟩) hp h

end

theorem negate_upright (h : negate t u ⇓ v) (hu : u.Upright) : v.Upright := by
  unfold negate at h
  split at h
  all_goals try cases h
  all_goals
    simp only [bind_eq_clean, pure_eq_ok, and_true] at h
    obtain ⟨k, hk, rfl⟩ := h
  · trivial
  · exact C72_neg_positive_denominator hu hk
  · simp only [Mixed.neg, bind_eq_clean] at hk
    obtain ⟨w, -, f, hf, hk⟩ := hk
    exact fix_upright (k := ⟨w, f⟩) (C72_neg_positive_denominator hu hf) hk
  · trivial

theorem apply_upright {op : ArithOp} (h : apply op l r u v ⇓ w) (hx : u.Denotes x) (hy : v.Denotes y)
    (hq : binValue op l r x y = some q) (hu : u.Upright) (hv : v.Upright)
    (hd : op = .divides → DivisorOk l r y) : w.Upright := by
  unfold apply at h
  split at h
  · simp only [bind_eq_clean, pure_eq_ok, and_true] at h
    obtain ⟨k, hk, rfl⟩ := h
    trivial
  split at h
  swap
  · cases h
  rename_i f t hf
  have hq' : op.value x y = some q := by
    unfold binValue at hq
    split at hq
    · rw [resolve_eq] at hf; cases hf
    · exact hq
  unfold call at h
  split at h
  all_goals try cases h
  all_goals
    simp only [bind_eq_clean, pure_eq_ok, and_true] at h
    obtain ⟨k, hk, rfl⟩ := h
  · exact quotient_upright (a := .ff _ _) ⟨hu, hv⟩ ⟨hx, hy⟩ hq' hd hk
  · exact quotient_upright (a := .fr _ _) hu ⟨hx, hy⟩ hq' hd hk
  · exact quotient_upright (a := .rf _ _) hv ⟨hx, hy⟩ hq' hd hk
  · exact mixedAdd_upright hu hv hk
  · exact addFraction_upright hu hv hk
  · exact addFraction_upright hv hu hk
  · exact addWhole_upright hu hk
  · exact addWhole_upright hv hk
  all_goals
    cases op <;> simp only [resolve_eq, reduceCtorEq, Resolution.calls.injEq, false_and] at hf
  · simp only [DenLit.divFraction, bind_eq_clean, conv_clean] at hk
    obtain ⟨d, ⟨-, rfl⟩, hk⟩ := hk
    exact quotient_upright (a := .fr _ _) hu ⟨hx, hy⟩ hq' hd hk
  · simp only [DenLit.divRep, bind_eq_clean, conv_clean, pure_eq_ok, and_true] at hk
    obtain ⟨d, ⟨-, rfl⟩, rfl⟩ := hk
    have := hd rfl
    cases hy
    exact_mod_cast (show (0 : ℚ) < _ from this)

section
variable {L R : IntTy} {o : Ops} {a : Args} {f : Raw}

theorem divisor_of_upright (hp : a.PosDen) (ha : a.Denote x y)
    (h : Fraction.arith L R o .divides a ⇓ f) (hf : 0 < f.den) : 0 < y ∨ o.NormalizesOutput := by
  obtain ⟨a', h1, h2⟩ := bind_eq_clean.1 h
  rw [Fraction.toCommon_clean h1] at h2
  exact ((C72_positive_denominator_iff hp ha h2).1 hf rfl).imp_right And.right

end

/-- The converse for quotients. -/
theorem divisorOk_of_upright {op : ArithOp} (h : apply op l r u v ⇓ w) (hx : u.Denotes x)
    (hy : v.Denotes y) (hu : u.Upright) (hv : v.Upright) (hw : w.Upright) (ho : op = .divides) :
    DivisorOk l r y := by
  subst ho
  unfold apply at h
  split at h
  · trivial
  split at h
  swap
  · cases h
  rename_i f t hf
  unfold call at h
  split at h
  all_goals try cases h
  all_goals
    simp only [bind_eq_clean, pure_eq_ok, and_true] at h
    obtain ⟨k, hk, rfl⟩ := h
  · exact divisor_of_upright (a := .ff _ _) ⟨hu, hv⟩ ⟨hx, hy⟩ hk hw
  · exact divisor_of_upright (a := .fr _ _) hu ⟨hx, hy⟩ hk hw
  · exact divisor_of_upright (a := .rf _ _) hv ⟨hx, hy⟩ hk hw
  all_goals simp only [resolve_eq, reduceCtorEq, Resolution.calls.injEq, false_and] at hf
  · simp only [DenLit.divFraction, bind_eq_clean, conv_clean] at hk
    obtain ⟨d, ⟨-, rfl⟩, hk⟩ := hk
    exact divisor_of_upright (a := .fr _ _) hu ⟨hx, hy⟩ hk hw
  · simp only [DenLit.divRep, bind_eq_clean, conv_clean, pure_eq_ok, and_true] at hk
    obtain ⟨d, ⟨-, rfl⟩, rfl⟩ := hk
    cases hy
    exact Int.cast_pos.2 hw

theorem inst_upright (hm : m.Holds s) (hu : m.Upright) (hp : e.Proper) (he : e.Upright Γ s)
    (hq : e.value Γ s = some q) (h : (e.inst Γ m).eval ⇓ v) : v.Upright := by
  induction e generalizing v q with
  | var x => obtain ⟨rfl, -⟩ := pure_eq_ok.1 h; exact hu x
  | obj t u => obtain ⟨rfl, -⟩ := pure_eq_ok.1 h; exact he
  | pos e ih => exact ih hp he hq h
  | neg e ih =>
    rw [VExpr.inst, TExpr.eval] at h
    split at h
    · obtain ⟨u, hu, h⟩ := bind_eq_clean.1 h
      obtain ⟨x, hx, -⟩ := Option.map_eq_some_iff.1 hq
      exact negate_upright h (ih hp he hx hu)
    · cases h
  | bin op l r ih1 ih2 =>
    rw [VExpr.inst, TExpr.eval] at h
    split at h
    · rename_i a b ha hb
      obtain ⟨u, hu, h⟩ := bind_eq_clean.1 h
      obtain ⟨u', hu', h⟩ := bind_eq_clean.1 h
      rw [inst_ty] at ha hb
      simp only [VExpr.value, ha, hb, Option.bind_eq_some_iff] at hq
      obtain ⟨x, hx, y, hy, hq⟩ := hq
      exact apply_upright h (inst_exact hm hp.1 hu hx).1 (inst_exact hm hp.2 hu' hy).1 hq
        (ih1 hp.1 he.1 hx hu) (ih2 hp.2 he.2.1 hy hu') fun ho => he.2.2 ho _ _ _ ha hb hy
    · cases h

theorem convert_upright (h : convert l r u ⇓ v) (hu : u.Upright) : v.Upright := by
  unfold convert at h
  split at h
  · simp only [bind_eq_clean, pure_eq_ok, and_true] at h
    obtain ⟨k, hk, rfl⟩ := h
    trivial
  · simp only [bind_eq_clean, pure_eq_ok, and_true] at h
    obtain ⟨k, hk, rfl⟩ := h
    exact one_pos
  · simp only [bind_eq_clean, pure_eq_ok, and_true] at h
    obtain ⟨k, hk, k', hk', rfl⟩ := h
    exact fix_upright (k := ⟨_, Fraction.default⟩) one_pos hk'
  · simp only [bind_eq_clean, pure_eq_ok, and_true] at h
    obtain ⟨k, hk, rfl⟩ := h
    trivial
  · split_ifs at h
    · obtain ⟨rfl, -⟩ := pure_eq_ok.1 h; exact hu
    · simp only [bind_eq_clean, pure_eq_ok, and_true] at h
      obtain ⟨k, hk, rfl⟩ := h
      exact conv_upright hu hk
  · split_ifs at h
    simp only [bind_eq_clean, pure_eq_ok, and_true] at h
    obtain ⟨k, hk, rfl⟩ := h
    exact ofFraction_upright hu hk
  · split_ifs at h
    simp only [bind_eq_clean, pure_eq_ok, and_true] at h
    obtain ⟨k, hk, rfl⟩ := h
    exact asFraction_upright hu hk
  · split_ifs at h
    obtain ⟨rfl, -⟩ := pure_eq_ok.1 h; exact hu
  · split_ifs at h
    obtain ⟨rfl, -⟩ := pure_eq_ok.1 h; exact hu
  · cases h

theorem compoundAssign_upright {op : ArithOp} (h : compoundAssign op l r u v ⇓ w)
    (hx : u.Denotes x) (hy : v.Denotes y) (hq : binValue op l r x y = some q) (hu : u.Upright)
    (hv : v.Upright) (hd : op = .divides → DivisorOk l r y) : w.Upright := by
  unfold compoundAssign at h
  split at h
  · simp only [bind_eq_clean, pure_eq_ok, and_true] at h
    obtain ⟨k, hk, k', hk', rfl⟩ := h
    trivial
  · split at h
    · simp only [bind_eq_clean, pure_eq_ok, and_true] at h
      obtain ⟨k, hk, rfl⟩ := h
      rw [binValue] at hq
      · unfold Fraction.assignF at hk
        split_ifs at hk
        · exact quotient_upright (a := .ff _ _) ⟨hu, hv⟩ ⟨hx, hy⟩ hq hd hk
        · obtain ⟨b', hb, hk'⟩ := bind_eq_clean.1 hk
          obtain ⟨-, rfl⟩ := Raw.conv_clean.1 hb
          exact quotient_upright (a := .ff _ _) ⟨hu, hv⟩ ⟨hx, hy⟩ hq hd hk'
      · simp
    · cases h
  · split at h
    · simp only [bind_eq_clean, pure_eq_ok, and_true] at h
      obtain ⟨k, hk, rfl⟩ := h
      rw [binValue] at hq
      · unfold Fraction.assignR at hk
        split_ifs at hk
        · exact quotient_upright (a := .fr _ _) hu ⟨hx, hy⟩ hq hd hk
        · obtain ⟨b', hb, hk'⟩ := bind_eq_clean.1 hk
          obtain ⟨-, rfl⟩ := conv_clean.1 hb
          exact quotient_upright (a := .fr _ _) hu ⟨hx, hy⟩ hq hd hk'
      · simp
    · cases h
  · cases h

theorem callRun_upright {f : Call} (h : f.run t u ⇓ v) (hx : u.Denotes x) (hu : u.Upright)
    (hf : f = .reciprocal → 0 < x) : v.Upright := by
  unfold Call.run at h
  split at h
  · simp only [bind_eq_clean, pure_eq_ok, and_true] at h
    obtain ⟨k, hk, rfl⟩ := h
    trivial
  · simp only [bind_eq_clean, pure_eq_ok, and_true] at h
    obtain ⟨k, hk, rfl⟩ := h
    unfold Fraction.abs at hk
    split at hk
    · obtain ⟨rfl, -⟩ := pure_eq_ok.1 hk; exact hu
    · exact C72_neg_positive_denominator hu hk
  · obtain ⟨rfl, -⟩ := pure_eq_ok.1 h
    exact num_pos_of hu hx (hf rfl)
  · obtain ⟨rfl, -⟩ := pure_eq_ok.1 h
    trivial
  · obtain ⟨rfl, -⟩ := pure_eq_ok.1 h
    exact hu
  · simp only [bind_eq_clean, pure_eq_ok, and_true] at h
    obtain ⟨k, hk, rfl⟩ := h
    exact asFraction_upright hu hk
  · cases h

theorem set_upright (hm : m.Upright) {z : ℕ} (h : v.Upright) : (m.set z v).Upright := by
  intro w
  by_cases hw : w = z
  · simpa only [Vars.set, hw, if_true] using h
  · simpa only [Vars.set, hw, if_false] using hm w

theorem cmp_upright {L R : IntTy} {o : Ops} {op : CmpOp} {a : Args} {b : Bool} (ha : a.Denote x y)
    (hp : a.PosDen) (h : Fraction.cmp L R o op a ⇓ b) : b = true ↔ op.Holds x y := by
  obtain ⟨a', h1, h2⟩ := bind_eq_clean.1 h
  rw [Fraction.toCommon_clean h1] at h2
  exact C15_order_exact_partial ha hp h2

theorem compare_upright {op : CmpOp} {b : Bool} (h : compare op l r u v ⇓ b)
    (hx : u.Denotes x) (hy : v.Denotes y) (hu : u.Upright) (hv : v.Upright) :
    b = true ↔ op.Holds x y := by
  unfold compare at h
  split at h
  · simp only [bind_eq_clean, pure_eq_ok, and_true] at h
    obtain ⟨k, hk, k', hk', rfl⟩ := h
    obtain ⟨-, rfl⟩ := conv_clean.1 hk
    obtain ⟨-, rfl⟩ := conv_clean.1 hk'
    cases hx; cases hy
    exact builtinCmp_iff _ _ _
  · split at h
    · exact cmp_upright (a := .ff _ _) ⟨hx, hy⟩ ⟨hu, hv⟩ h
    · cases h
  · split at h
    · exact cmp_upright (a := .fr _ _) ⟨hx, hy⟩ hu h
    · cases h
  · split at h
    · exact cmp_upright (a := .rf _ _) ⟨hx, hy⟩ hv h
    · cases h
  · cases h

theorem test_upright {op : CmpOp} {e1 e2 : VExpr} {b : Bool} (hm : m.Holds s) (hu : m.Upright)
    (p1 : e1.Proper) (p2 : e2.Proper) (u1 : e1.Upright Γ s) (u2 : e2.Upright Γ s)
    (h1 : e1.value Γ s = some x) (h2 : e2.value Γ s = some y) (h : Stmt.test Γ m op e1 e2 ⇓ b) :
    b = true ↔ op.Holds x y := by
  unfold Stmt.test at h
  split at h
  · simp only [bind_eq_clean] at h
    obtain ⟨u, hu', v, hv', h⟩ := h
    exact compare_upright h (inst_exact hm p1 hu' h1).1 (inst_exact hm p2 hv' h2).1
      (inst_upright hm hu p1 u1 h1 hu') (inst_upright hm hu p2 u2 h2 hv')
  · cases h

/-! ### Programs -/

theorem Straight.meaning {c : Stmt} (h : Straight Γ c s s') : Meaning Γ c s s' := by
  induction h with
  | skip => exact .skip
  | assign he => exact .assign he
  | compound ht he hq => exact .compound ht he hq
  | call he hq => exact .call he hq
  | seq _ _ ih1 ih2 => exact .seq ih1 ih2
  | iteTrue h1 h2 _ _ h _ ih => exact .iteTrue h1 h2 h ih
  | iteFalse h1 h2 _ _ h _ ih => exact .iteFalse h1 h2 h ih
  | loopTrue h1 h2 _ _ h _ _ ih1 ih2 => exact .loopTrue h1 h2 h ih1 ih2
  | loopFalse h1 h2 _ _ h => exact .loopFalse h1 h2 h

theorem straight_of_upright {c : Stmt} (h : Meaning Γ c s s') (hc : c.Upright Γ) :
    Straight Γ c s s' := by
  induction h with
  | skip => exact .skip
  | assign he => exact .assign he (hc _)
  | compound ht he hq => exact .compound ht he hq (hc.1 _) fun h => hc.2 h _ _ _ ht he
  | call he hq => exact .call he hq (hc.1 _) fun h => absurd h hc.2
  | seq _ _ ih1 ih2 => exact .seq (ih1 hc.1) (ih2 hc.2)
  | iteTrue h1 h2 h _ ih => exact .iteTrue h1 h2 (hc.1 _).1 (hc.1 _).2 h (ih hc.2.1)
  | iteFalse h1 h2 h _ ih => exact .iteFalse h1 h2 (hc.1 _).1 (hc.1 _).2 h (ih hc.2.2)
  | loopTrue h1 h2 h _ _ ih1 ih2 =>
    exact .loopTrue h1 h2 (hc.1 _).1 (hc.1 _).2 h (ih1 hc.2) (ih2 hc)
  | loopFalse h1 h2 h => exact .loopFalse h1 h2 (hc.1 _).1 (hc.1 _).2 h

/-- Exactness and termination together. -/
theorem straight_exec {c : Stmt} (hr : Straight Γ c s s') (hc : c.All VExpr.Proper) :
    (∀ (m : Vars) n m', m.Holds s → m.Upright → c.exec Γ n m ⇓ some m' → m'.Holds s' ∧ m'.Upright) ∧
    ∃ N, ∀ m : Vars, m.Holds s → m.Upright → ∀ n ≥ N, ¬ (c.exec Γ n m ⇓ none) := by
  have zero : ∀ {c : Stmt} {m m' : Vars}, ¬ (c.exec Γ 0 m ⇓ some m') := by
    intro c m m' h; simp [Stmt.exec, pure_def] at h
  have pred : ∀ {n N : ℕ}, n ≥ N + 1 → ∃ k, n = k + 1 ∧ k ≥ N := fun {n N} h =>
    ⟨n - 1, by omega, by omega⟩
  induction hr with
  | skip =>
    refine ⟨fun m n m' hm hp h => ?_, 1, fun m _ _ n hn h => ?_⟩
    · cases n with
      | zero => exact (zero h).elim
      | succ n =>
        simp only [Stmt.exec, pure_eq_ok, Option.some.injEq, and_true] at h
        exact h ▸ ⟨hm, hp⟩
    · obtain ⟨n, rfl, -⟩ := pred hn
      simp [Stmt.exec, pure_def] at h
  | assign he ue =>
    refine ⟨fun m n m' hm hp h => ?_, 1, fun m _ _ n hn h => ?_⟩
    · cases n with
      | zero => exact (zero h).elim
      | succ n =>
        rw [Stmt.exec] at h
        split at h
        · simp only [bind_eq_clean, pure_eq_ok, Option.some.injEq, and_true] at h
          obtain ⟨v, hv, v', hv', rfl⟩ := h
          exact ⟨set_holds hm (convert_exact hv' (inst_exact hm hc hv he)),
            set_upright hp (convert_upright hv' (inst_upright hm hp hc ue he hv))⟩
        · cases h
    · obtain ⟨n, rfl, -⟩ := pred hn
      rw [Stmt.exec] at h
      split at h <;> [skip; cases h]
      simp only [bind_eq_clean, pure_eq_ok, reduceCtorEq, false_and, and_false, exists_false] at h
  | compound ht he hq ue ud =>
    refine ⟨fun m n m' hm hp h => ?_, 1, fun m _ _ n hn h => ?_⟩
    · cases n with
      | zero => exact (zero h).elim
      | succ n =>
        rw [Stmt.exec, ht] at h
        simp only [bind_eq_clean, pure_eq_ok, Option.some.injEq, and_true] at h
        obtain ⟨v, hv, v', hv', rfl⟩ := h
        exact ⟨set_holds hm (compoundAssign_exact hv' (hm _).1 (inst_exact hm hc hv he).1 hq),
          set_upright hp (compoundAssign_upright hv' (hm _).1 (inst_exact hm hc hv he).1 hq (hp _)
            (inst_upright hm hp hc ue he hv) ud)⟩
    · obtain ⟨n, rfl, -⟩ := pred hn
      rw [Stmt.exec, ht] at h
      simp only [bind_eq_clean, pure_eq_ok, reduceCtorEq, false_and, and_false, exists_false] at h
  | call he hq ue uf =>
    refine ⟨fun m n m' hm hp h => ?_, 1, fun m _ _ n hn h => ?_⟩
    · cases n with
      | zero => exact (zero h).elim
      | succ n =>
        rw [Stmt.exec] at h
        split at h <;> [skip; cases h]
        split at h <;> [skip; cases h]
        simp only [bind_eq_clean, pure_eq_ok, Option.some.injEq, and_true] at h
        obtain ⟨v, hv, r, hr, v', hv', rfl⟩ := h
        have hd := inst_exact hm hc hv he
        exact ⟨set_holds hm (convert_exact hv' (callRun_exact hr hd hq)),
          set_upright hp (convert_upright hv' (callRun_upright hr hd.1
            (inst_upright hm hp hc ue he hv) uf))⟩
    · obtain ⟨n, rfl, -⟩ := pred hn
      rw [Stmt.exec] at h
      split at h <;> [skip; cases h]
      split at h <;> [skip; cases h]
      simp only [bind_eq_clean, pure_eq_ok, reduceCtorEq, false_and, and_false, exists_false] at h
  | seq _ _ ihc ihd =>
    obtain ⟨a1, N1, g1⟩ := ihc hc.1
    obtain ⟨a2, N2, g2⟩ := ihd hc.2
    refine ⟨fun m n m' hm hp h => ?_, max N1 N2 + 1, fun m hm hp n hn h => ?_⟩
    · cases n with
      | zero => exact (zero h).elim
      | succ n =>
        simp only [Stmt.exec, bind_eq_clean] at h
        obtain ⟨r, h1, h2⟩ := h
        cases r with
        | none => simp [pure_def] at h2
        | some m1 =>
          obtain ⟨i1, i2⟩ := a1 m n m1 hm hp h1
          exact a2 m1 n m' i1 i2 h2
    · obtain ⟨n, rfl, hn⟩ := pred hn
      simp only [Stmt.exec, bind_eq_clean] at h
      obtain ⟨r, h1, h2⟩ := h
      cases r with
      | none => exact g1 m hm hp n (by omega) h1
      | some m1 =>
        obtain ⟨i1, i2⟩ := a1 m n m1 hm hp h1
        exact g2 m1 i1 i2 n (by omega) h2
  | iteTrue h1 h2 u1 u2 hb _ ih =>
    obtain ⟨t1, t2, hc, -⟩ := hc
    obtain ⟨a, N, g⟩ := ih hc
    refine ⟨fun m n m' hm hp h => ?_, N + 1, fun m hm hp n hn h => ?_⟩
    · cases n with
      | zero => exact (zero h).elim
      | succ n =>
        simp only [Stmt.exec, bind_eq_clean] at h
        obtain ⟨b, ht, h⟩ := h
        rw [(test_upright hm hp t1 t2 u1 u2 h1 h2 ht).2 hb, if_pos rfl] at h
        exact a m n m' hm hp h
    · obtain ⟨n, rfl, hn⟩ := pred hn
      simp only [Stmt.exec, bind_eq_clean] at h
      obtain ⟨b, ht, h⟩ := h
      rw [(test_upright hm hp t1 t2 u1 u2 h1 h2 ht).2 hb, if_pos rfl] at h
      exact g m hm hp n (by omega) h
  | iteFalse h1 h2 u1 u2 hb _ ih =>
    obtain ⟨t1, t2, -, hc⟩ := hc
    obtain ⟨a, N, g⟩ := ih hc
    refine ⟨fun m n m' hm hp h => ?_, N + 1, fun m hm hp n hn h => ?_⟩
    · cases n with
      | zero => exact (zero h).elim
      | succ n =>
        simp only [Stmt.exec, bind_eq_clean] at h
        obtain ⟨b, ht, h⟩ := h
        rw [if_neg (mt (test_upright hm hp t1 t2 u1 u2 h1 h2 ht).1 hb)] at h
        exact a m n m' hm hp h
    · obtain ⟨n, rfl, hn⟩ := pred hn
      simp only [Stmt.exec, bind_eq_clean] at h
      obtain ⟨b, ht, h⟩ := h
      rw [if_neg (mt (test_upright hm hp t1 t2 u1 u2 h1 h2 ht).1 hb)] at h
      exact g m hm hp n (by omega) h
  | loopTrue h1 h2 u1 u2 hb _ _ ihc ihl =>
    obtain ⟨t1, t2, hb'⟩ := id hc
    obtain ⟨a1, N1, g1⟩ := ihc hb'
    obtain ⟨a2, N2, g2⟩ := ihl hc
    refine ⟨fun m n m' hm hp h => ?_, max N1 N2 + 1, fun m hm hp n hn h => ?_⟩
    · cases n with
      | zero => exact (zero h).elim
      | succ n =>
        simp only [Stmt.exec, bind_eq_clean] at h
        obtain ⟨b, ht, h⟩ := h
        rw [(test_upright hm hp t1 t2 u1 u2 h1 h2 ht).2 hb, if_pos rfl] at h
        simp only [bind_eq_clean] at h
        obtain ⟨r, e1, e2⟩ := h
        cases r with
        | none => simp [pure_def] at e2
        | some m1 =>
          obtain ⟨i1, i2⟩ := a1 m n m1 hm hp e1
          exact a2 m1 n m' i1 i2 e2
    · obtain ⟨n, rfl, hn⟩ := pred hn
      simp only [Stmt.exec, bind_eq_clean] at h
      obtain ⟨b, ht, h⟩ := h
      rw [(test_upright hm hp t1 t2 u1 u2 h1 h2 ht).2 hb, if_pos rfl] at h
      simp only [bind_eq_clean] at h
      obtain ⟨r, e1, e2⟩ := h
      cases r with
      | none => exact g1 m hm hp n (by omega) e1
      | some m1 =>
        obtain ⟨i1, i2⟩ := a1 m n m1 hm hp e1
        exact g2 m1 i1 i2 n (by omega) e2
  | loopFalse h1 h2 u1 u2 hb =>
    obtain ⟨t1, t2, -⟩ := hc
    refine ⟨fun m n m' hm hp h => ?_, 1, fun m hm hp n hn h => ?_⟩
    · cases n with
      | zero => exact (zero h).elim
      | succ n =>
        simp only [Stmt.exec, bind_eq_clean] at h
        obtain ⟨b, ht, h⟩ := h
        rw [if_neg (mt (test_upright hm hp t1 t2 u1 u2 h1 h2 ht).1 hb)] at h
        simp only [pure_eq_ok, Option.some.injEq, and_true] at h
        exact h ▸ ⟨hm, hp⟩
    · obtain ⟨n, rfl, hn⟩ := pred hn
      simp only [Stmt.exec, bind_eq_clean] at h
      obtain ⟨b, ht, h⟩ := h
      rw [if_neg (mt (test_upright hm hp t1 t2 u1 u2 h1 h2 ht).1 hb)] at h
      simp [pure_def] at h

/-! ### Wide types -/

section
variable {φ : IntTy → IntTy}

theorem value_retype (h : Commutes φ) (e : VExpr) :
    (e.retype φ).value (Γ.retype φ) s = e.value Γ s := by
  induction e with
  | var x => rfl
  | obj t v => rfl
  | pos e ih => exact ih
  | neg e ih => simp only [VExpr.retype, VExpr.value, ih]
  | bin op l r ih1 ih2 =>
    simp only [VExpr.retype, VExpr.value, ih1, ih2, ty_retype h]
    cases l.ty Γ <;> cases r.ty Γ <;> simp only [Option.map_some, Option.map_none, binValue_retype]

theorem divisorOk_retype : DivisorOk (l.retype φ) (r.retype φ) y ↔ DivisorOk l r y := by
  cases l <;> cases r <;> rfl

theorem upright_retype (h : Commutes φ) (he : e.Upright Γ s) :
    (e.retype φ).Upright (Γ.retype φ) s := by
  induction e with
  | var x => trivial
  | obj t v => exact he
  | pos e ih => exact ih he
  | neg e ih => exact ih he
  | bin op l r ih1 ih2 =>
    refine ⟨ih1 he.1, ih2 he.2.1, fun ho a b y ha hb hy => ?_⟩
    rw [ty_retype h, Option.map_eq_some_iff] at ha hb
    obtain ⟨a, ha, rfl⟩ := ha
    obtain ⟨b, hb, rfl⟩ := hb
    rw [value_retype h] at hy
    exact divisorOk_retype.2 (he.2.2 ho a b y ha hb hy)

theorem proper_retype (he : e.Proper) : (e.retype φ).Proper := by
  induction e with
  | var x => trivial
  | obj t v => exact he
  | pos e ih => exact ih he
  | neg e ih => exact ih he
  | bin op l r ih1 ih2 => exact ⟨ih1 he.1, ih2 he.2⟩

end

/-- A clean run of something that settles. -/
theorem Settles.run {α : Type} {f : IntTy → Res α} {a : α} (h : Settles f a) : ∃ T, f T ⇓ a := by
  obtain ⟨N, hN⟩ := h
  exact ⟨_, hN ⟨true, max N 32, le_max_right _ _⟩ rfl (le_max_left _ _)⟩

theorem settled_upright (hm : m.Holds s) (hu : m.Upright) (hp : e.Proper) (he : e.Upright Γ s)
    (hq : e.value Γ s = some q)
    (h : Settles (fun T => ((e.retype (only T)).inst (Γ.retype (only T)) m).eval) v) : v.Upright := by
  obtain ⟨T, hT⟩ := Settles.run h
  exact inst_upright hm hu (proper_retype hp) (upright_retype (.const T) he)
    ((value_retype (.const T) e).trans hq) hT

theorem settles_test_upright {op : CmpOp} {e1 e2 : VExpr} (hm : m.Holds s) (hu : m.Upright)
    (hl : ∀ x, (m x).Like (Γ x))
    (hc : ∃ a b, e1.ty Γ = some a ∧ e2.ty Γ = some b ∧ a.compares b = true)
    (u1 : e1.Upright Γ s) (u2 : e2.Upright Γ s) (h1 : e1.value Γ s = some x)
    (h2 : e2.value Γ s = some y)
    (o1 : e1.Objects) (o2 : e2.Objects) (l1 : e1.SmallLiterals) (l2 : e2.SmallLiterals)
    (p1 : e1.Proper) (p2 : e2.Proper) :
    ∃ b, Settles (fun T => Stmt.test (Γ.retype (only T)) m op (e1.retype (only T))
      (e2.retype (only T))) b ∧ (b = true ↔ op.Holds x y) := by
  obtain ⟨a, b, ha, hb, hc⟩ := hc
  obtain ⟨u, hu', hul, -, -⟩ := settles_inst hm hl e1 ha h1 o1 l1 p1
  obtain ⟨v, hv', hvl, -, -⟩ := settles_inst hm hl e2 hb h2 o2 l2 p2
  obtain ⟨k, hk⟩ := settles_compares op hc hul hvl
  have key : Settles (fun T => Stmt.test (Γ.retype (only T)) m op (e1.retype (only T))
      (e2.retype (only T))) k := by
    refine (Settles.bind (g := fun T u =>
      ((e2.retype (only T)).inst (Γ.retype (only T)) m).eval >>=
        compare op (a.retype (only T)) (b.retype (only T)) u) hu' (Settles.bind hv' hk)).congr
          fun T => ?_
    simp only [Stmt.test, ty_retype (.const T), ha, hb, Option.map_some]
  obtain ⟨T, hT⟩ := Settles.run key
  exact ⟨k, key, test_upright hm hu (proper_retype p1) (proper_retype p2) (upright_retype (.const T) u1)
    (upright_retype (.const T) u2) ((value_retype (.const T) e1).trans h1)
    ((value_retype (.const T) e2).trans h2) hT⟩

theorem settles_straight {c : Stmt} (hr : Straight Γ c s s') (hm : m.Holds s) (hu : m.Upright)
    (hl : ∀ x, (m x).Like (Γ x)) (hΓ : Γ.NoLiterals) (hc : c.Compiles Γ)
    (ho : c.All VExpr.Objects) (hs : c.All VExpr.SmallLiterals) (hp : c.All VExpr.Proper) :
    ∃ (n N : ℕ) (m' : Vars), m'.Holds s' ∧ m'.Upright ∧ (∀ x, (m' x).Like (Γ x)) ∧
      ∀ T : IntTy, T.signed = true → N ≤ T.bits →
      ∀ k ≥ n, (c.retype (only T)).exec (Γ.retype (only T)) k m ⇓ some m' := by
  induction hr generalizing m with
  | skip =>
    refine ⟨1, 0, m, hm, hu, hl, fun T _ _ k hk => ?_⟩
    obtain ⟨k, rfl⟩ : ∃ j, k = j + 1 := ⟨k - 1, by omega⟩
    rfl
  | assign he ue =>
    obtain ⟨t, ht, hc⟩ := hc
    obtain ⟨u, hu', hul, hud, hup⟩ := settles_inst hm hl _ ht he ho hs hp
    obtain ⟨v, hv, hvl, hvd⟩ := settles_convert hc (hΓ _) hul hud hup
    have huu := settled_upright hm hu hp ue he hu'
    have hvu := convert_upright (Settles.run hv).choose_spec huu
    obtain ⟨N, hN⟩ := Settles.bind hu' hv
    refine ⟨1, N, _, set_holds hm hvd, set_upright hu hvu, set_like hl hvl, fun T hT hb k hk => ?_⟩
    obtain ⟨k, rfl⟩ : ∃ j, k = j + 1 := ⟨k - 1, by omega⟩
    obtain ⟨u', h1, h2⟩ := bind_eq_clean.1 (hN T hT hb)
    simp only [Stmt.retype, Stmt.exec, ty_retype (.const T), ht, Option.map_some, bind_eq_clean]
    exact ⟨u', h1, v, h2, rfl⟩
  | compound ht he hq ue ud =>
    obtain ⟨t', ht', hc⟩ := hc
    obtain rfl := Option.some.inj (ht.symm.trans ht')
    obtain ⟨u, hu', hul, hud, hup⟩ := settles_inst hm hl _ ht he ho hs hp
    obtain ⟨v, hv, hvl, hvd⟩ := settles_compound hc (hl _) hul (hm _).1 hud hq
    have huu := settled_upright hm hu hp ue he hu'
    have hvu := compoundAssign_upright (Settles.run hv).choose_spec (hm _).1 hud
      ((binValue_retype _).trans hq) (hu _) huu fun h => divisorOk_retype.2 (ud h)
    obtain ⟨N, hN⟩ := Settles.bind hu' hv
    refine ⟨1, N, _, set_holds hm hvd, set_upright hu hvu, set_like hl hvl, fun T hT hb k hk => ?_⟩
    obtain ⟨k, rfl⟩ : ∃ j, k = j + 1 := ⟨k - 1, by omega⟩
    obtain ⟨u', h1, h2⟩ := bind_eq_clean.1 (hN T hT hb)
    simp only [Stmt.retype, Stmt.exec, ty_retype (.const T), ht, Option.map_some, bind_eq_clean]
    exact ⟨u', h1, v, h2, rfl⟩
  | call he hq ue uf =>
    obtain ⟨t, t', ht, hf, hc⟩ := hc
    obtain ⟨u, hu', hul, hud, hup⟩ := settles_inst hm hl _ ht he ho hs hp
    obtain ⟨w, hw, hwl, hwd, hwp⟩ := settles_call hf hul hud hup hq
    obtain ⟨v, hv, hvl, hvd⟩ := settles_convert hc (hΓ _) hwl hwd hwp
    have huu := settled_upright hm hu hp ue he hu'
    have hwu := callRun_upright (Settles.run hw).choose_spec hud huu uf
    have hvu := convert_upright (Settles.run hv).choose_spec hwu
    obtain ⟨N, hN⟩ := Settles.bind (Settles.bind hu' hw) hv
    refine ⟨1, N, _, set_holds hm hvd, set_upright hu hvu, set_like hl hvl, fun T hT hb k hk => ?_⟩
    obtain ⟨k, rfl⟩ : ∃ j, k = j + 1 := ⟨k - 1, by omega⟩
    obtain ⟨w', h1, h2⟩ := bind_eq_clean.1 (hN T hT hb)
    obtain ⟨u', h0, h1⟩ := bind_eq_clean.1 h1
    simp only [Stmt.retype, Stmt.exec, ty_retype (.const T), ht, Option.map_some,
      callTy_retype (.const T), hf, bind_eq_clean]
    exact ⟨u', h0, w', h1, v, h2, rfl⟩
  | seq _ _ ihc ihd =>
    obtain ⟨n1, N1, m1, hm1, hu1, hl1, h1⟩ := ihc hm hu hl hc.1 ho.1 hs.1 hp.1
    obtain ⟨n2, N2, m2, hm2, hu2, hl2, h2⟩ := ihd hm1 hu1 hl1 hc.2 ho.2 hs.2 hp.2
    refine ⟨max n1 n2 + 1, max N1 N2, m2, hm2, hu2, hl2, fun T hT hb k hk => ?_⟩
    obtain ⟨k, rfl⟩ : ∃ j, k = j + 1 := ⟨k - 1, by omega⟩
    simp only [Stmt.retype, Stmt.exec, h1 T hT (by omega) k (by omega), ok_bind_false]
    exact h2 T hT (by omega) k (by omega)
  | iteTrue h1 h2 u1 u2 hb _ ih =>
    obtain ⟨b, ⟨N1, hN1⟩, hb'⟩ := settles_test_upright hm hu hl hc.1 u1 u2 h1 h2 ho.1 ho.2.1 hs.1
      hs.2.1 hp.1 hp.2.1
    obtain ⟨n, N2, m1, hm1, hu1, hl1, g⟩ := ih hm hu hl hc.2.1 ho.2.2.1 hs.2.2.1 hp.2.2.1
    refine ⟨n + 1, max N1 N2, m1, hm1, hu1, hl1, fun T hT hB k hk => ?_⟩
    obtain ⟨k, rfl⟩ : ∃ j, k = j + 1 := ⟨k - 1, by omega⟩
    obtain rfl := hb'.2 hb
    simp only [Stmt.retype, Stmt.exec, hN1 T hT (by omega), ok_bind_false, if_true]
    exact g T hT (by omega) k (by omega)
  | iteFalse h1 h2 u1 u2 hb _ ih =>
    obtain ⟨b, ⟨N1, hN1⟩, hb'⟩ := settles_test_upright hm hu hl hc.1 u1 u2 h1 h2 ho.1 ho.2.1 hs.1
      hs.2.1 hp.1 hp.2.1
    obtain ⟨n, N2, m1, hm1, hu1, hl1, g⟩ := ih hm hu hl hc.2.2 ho.2.2.2 hs.2.2.2 hp.2.2.2
    refine ⟨n + 1, max N1 N2, m1, hm1, hu1, hl1, fun T hT hB k hk => ?_⟩
    obtain ⟨k, rfl⟩ : ∃ j, k = j + 1 := ⟨k - 1, by omega⟩
    have hf : b ≠ true := fun h => hb (hb'.1 h)
    simp only [Stmt.retype, Stmt.exec, hN1 T hT (by omega), ok_bind_false, if_neg hf]
    exact g T hT (by omega) k (by omega)
  | loopTrue h1 h2 u1 u2 hb _ _ ihc ihl =>
    obtain ⟨b, ⟨N1, hN1⟩, hb'⟩ := settles_test_upright hm hu hl hc.1 u1 u2 h1 h2 ho.1 ho.2.1 hs.1
      hs.2.1 hp.1 hp.2.1
    obtain ⟨n1, N2, m1, hm1, hu1, hl1, g1⟩ := ihc hm hu hl hc.2 ho.2.2 hs.2.2 hp.2.2
    obtain ⟨n2, N3, m2, hm2, hu2, hl2, g2⟩ := ihl hm1 hu1 hl1 hc ho hs hp
    refine ⟨max n1 n2 + 1, max N1 (max N2 N3), m2, hm2, hu2, hl2, fun T hT hB k hk => ?_⟩
    obtain ⟨k, rfl⟩ : ∃ j, k = j + 1 := ⟨k - 1, by omega⟩
    obtain rfl := hb'.2 hb
    simp only [Stmt.retype, Stmt.exec, hN1 T hT (by omega), ok_bind_false, if_true,
      g1 T hT (by omega) k (by omega)]
    exact g2 T hT (by omega) k (by omega)
  | loopFalse h1 h2 u1 u2 hb =>
    obtain ⟨b, ⟨N1, hN1⟩, hb'⟩ := settles_test_upright hm hu hl hc.1 u1 u2 h1 h2 ho.1 ho.2.1 hs.1
      hs.2.1 hp.1 hp.2.1
    refine ⟨1, N1, m, hm, hu, hl, fun T hT hB k hk => ?_⟩
    obtain ⟨k, rfl⟩ : ∃ j, k = j + 1 := ⟨k - 1, by omega⟩
    have hf : b ≠ true := fun h => hb (hb'.1 h)
    simp only [Stmt.retype, Stmt.exec, hN1 T hT (by omega), ok_bind_false, if_neg hf]
    rfl

end Ieme.Overload
