import Verif.Lemmas.Exact

/-!
# Comparison functions of every policy
-/

namespace Ieme

open Res IntTy

/-- The comparison on integers. -/
def CmpOp.test : CmpOp → ℤ → ℤ → Bool
  | .equalTo, a, b => decide (a = b)
  | .notEqualTo, a, b => decide (a ≠ b)
  | .less, a, b => decide (a < b)
  | .lessEqual, a, b => decide (a ≤ b)
  | .greater, a, b => decide (a > b)
  | .greaterEqual, a, b => decide (a ≥ b)

/-- `b` is the integer comparison of numerators over a common denominator `L`. -/
def CmpForm (op : CmpOp) (x y : ℚ) (good : Prop) (b : Bool) : Prop :=
  ∃ p q L : ℤ, L ≠ 0 ∧ x = (p : ℚ) / L ∧ y = (q : ℚ) / L ∧ b = op.test p q ∧ (0 < L ↔ good)

theorem CmpForm.swap {op op' : CmpOp} {x y : ℚ} {g : Prop} {b : Bool} (h : CmpForm op x y g b)
    (ho : ∀ p q, op.test p q = op'.test q p) : CmpForm op' y x g b := by
  obtain ⟨p, q, L, h1, h2, h3, h4, h5⟩ := h
  exact ⟨q, p, L, h1, h3, h2, by rw [h4, ho], h5⟩

theorem CmpForm.not {x y : ℚ} {g : Prop} {b : Bool} (h : CmpForm .equalTo x y g b) :
    CmpForm .notEqualTo x y g (!b) := by
  obtain ⟨p, q, L, h1, h2, h3, h4, h5⟩ := h
  exact ⟨p, q, L, h1, h2, h3, by rw [h4]; simp [CmpOp.test], h5⟩

theorem CmpForm.eq_iff {x y : ℚ} {g : Prop} {b : Bool} (h : CmpForm .equalTo x y g b) :
    b = true ↔ x = y := by
  obtain ⟨p, q, L, h1, rfl, rfl, rfl, -⟩ := h
  have : (L : ℚ) ≠ 0 := by exact_mod_cast h1
  rw [div_left_inj' this]
  simp [CmpOp.test]

theorem CmpForm.ne_iff {x y : ℚ} {g : Prop} {b : Bool} (h : CmpForm .notEqualTo x y g b) :
    b = true ↔ x ≠ y := by
  obtain ⟨p, q, L, h1, rfl, rfl, rfl, -⟩ := h
  have : (L : ℚ) ≠ 0 := by exact_mod_cast h1
  rw [Ne, div_left_inj' this]
  simp [CmpOp.test]

theorem CmpForm.order_good {op : CmpOp} {x y : ℚ} {g : Prop} {b : Bool} (h : CmpForm op x y g b)
    (hg : g) : b = true ↔ op.Holds x y := by
  obtain ⟨p, q, L, h1, rfl, rfl, rfl, h5⟩ := h
  have hL : (0 : ℚ) < L := by exact_mod_cast h5.2 hg
  cases op <;>
    simp [CmpOp.test, CmpOp.Holds, div_lt_div_iff_of_pos_right hL, div_le_div_iff_of_pos_right hL,
      div_left_inj' hL.ne']

theorem CmpForm.order_bad {op : CmpOp} {x y : ℚ} {g : Prop} {b : Bool} (h : CmpForm op x y g b)
    (hg : ¬ g) : b = true ↔ op.Holds y x := by
  obtain ⟨p, q, L, h1, rfl, rfl, rfl, h5⟩ := h
  have hL' : ¬ 0 < L := fun h => hg (h5.1 h)
  have hL : (L : ℚ) < 0 := by
    have : L < 0 := by omega
    exact_mod_cast this
  cases op
  · simp only [CmpOp.test, CmpOp.Holds, div_left_inj' hL.ne, Int.cast_inj, decide_eq_true_eq]
    exact eq_comm
  · simp only [CmpOp.test, CmpOp.Holds, Ne, div_left_inj' hL.ne, Int.cast_inj, decide_eq_true_eq]
    rw [eq_comm]
  all_goals
    simp [CmpOp.test, CmpOp.Holds, div_lt_div_right_of_neg hL, div_le_div_right_of_neg hL]

section

variable {T : IntTy} {l r : Raw} {x y : ℚ} {b : Bool}

theorem Safe.ff_form {op : CmpOp} (f : IntTy → Raw → Raw → Res Bool)
    (hf : ∀ T l r, f T l r = if l.isUndefined || r.isUndefined then pure false
      else do
        let lcm ← T.lcm l.den r.den
        let ql ← T.div lcm l.den
        let a ← T.mul ql l.num
        let qr ← T.div lcm r.den
        let b ← T.mul qr r.num
        return op.test a b)
    (hl : Denotes l x) (hr : Denotes r y) (h : f T l r ⇓ b) : CmpForm op x y True b := by
  obtain ⟨L, k, m, hL, hpos, hk, hm, hdk, hdm, -, -⟩ := lcm_split hl.1 hr.1
  obtain ⟨hx, hy⟩ := common_den hl hr (by omega) hk hm
  have e : (l.isUndefined || r.isUndefined) = false := by
    simp [Raw.isUndefined, Raw.isDefined, hl.1, hr.1]
  simp only [hf, e, Bool.false_eq_true, if_false, bind_eq_clean, lcm_clean, div_clean, mul_clean,
    pure_eq_ok, and_true, hL] at h
  obtain ⟨_, ⟨-, -, -, rfl⟩, _, ⟨-, -, rfl⟩, _, ⟨-, rfl⟩, _, ⟨-, -, rfl⟩, _, ⟨-, rfl⟩, rfl⟩ := h
  rw [hdk, hdm]
  exact ⟨_, _, _, by omega, hx, hy, rfl, by simpa using hpos⟩

theorem Fast.ff_form {op : CmpOp} (f : IntTy → Raw → Raw → Res Bool)
    (hf : ∀ T l r, f T l r = do
        let a ← T.mul l.num r.den
        let b ← T.mul r.num l.den
        return op.test a b && l.isDefined && r.isDefined)
    (hl : Denotes l x) (hr : Denotes r y) (h : f T l r ⇓ b) :
    CmpForm op x y (0 < l.den * r.den) b := by
  have hne : l.den * r.den ≠ 0 := mul_ne_zero hl.1 hr.1
  obtain ⟨hx, hy⟩ := common_den hl hr hne rfl (mul_comm _ _)
  rw [mul_comm r.den] at hx
  rw [mul_comm l.den] at hy
  simp only [hf, bind_eq_clean, mul_clean, pure_eq_ok, and_true] at h
  obtain ⟨_, ⟨-, rfl⟩, _, ⟨-, rfl⟩, rfl⟩ := h
  have e1 : l.isDefined = true := Raw.isDefined_iff.2 hl.1
  have e2 : r.isDefined = true := Raw.isDefined_iff.2 hr.1
  exact ⟨_, _, _, hne, hx, hy, by simp [e1, e2], Iff.rfl⟩

theorem fr_form {op : CmpOp} {r : ℤ} (f : IntTy → Raw → ℤ → Res Bool)
    (hf : ∀ T l r, f T l r = do
        let p ← T.mul r l.den
        return op.test l.num p && l.isDefined)
    (hl : Denotes l x) (h : f T l r ⇓ b) : CmpForm op x r (0 < l.den) b := by
  simp only [hf, bind_eq_clean, mul_clean, pure_eq_ok, and_true] at h
  obtain ⟨_, ⟨-, rfl⟩, rfl⟩ := h
  exact ⟨_, _, _, hl.1, hl.2.symm, int_over hl.1 r, by simp [Raw.isDefined_iff.2 hl.1], Iff.rfl⟩

theorem rf_form {op : CmpOp} {l : ℤ} (f : IntTy → ℤ → Raw → Res Bool)
    (hf : ∀ T l r, f T l r = do
        let p ← T.mul l r.den
        return op.test p r.num && r.isDefined)
    (hr : Denotes r y) (h : f T l r ⇓ b) : CmpForm op l y (0 < r.den) b := by
  simp only [hf, bind_eq_clean, mul_clean, pure_eq_ok, and_true] at h
  obtain ⟨_, ⟨-, rfl⟩, rfl⟩ := h
  exact ⟨_, _, _, hr.1, int_over hr.1 l, hr.2.symm, by simp [Raw.isDefined_iff.2 hr.1], Iff.rfl⟩

theorem Safe.cmp_form {op : CmpOp} {a : Args} (ha : a.Denote x y) (h : Safe.cmp T op a ⇓ b) :
    CmpForm op x y (Ops.safe.OrderSafe a) b := by
  cases a with
  | ff l r =>
    obtain ⟨hl, hr⟩ := ha
    cases op with
    | equalTo => exact Safe.ff_form (op := .equalTo) _ (fun _ _ _ => rfl) hl hr h
    | notEqualTo =>
      simp only [Safe.cmp, Safe.notEqualToFF, bind_eq_clean, pure_eq_ok, and_true] at h
      obtain ⟨b', h, rfl⟩ := h
      exact (Safe.ff_form (op := .equalTo) _ (fun _ _ _ => rfl) hl hr h).not
    | less => exact Safe.ff_form (op := .less) _ (fun _ _ _ => rfl) hl hr h
    | lessEqual => exact Safe.ff_form (op := .lessEqual) _ (fun _ _ _ => rfl) hl hr h
    | greater =>
      exact (Safe.ff_form (op := .less) Safe.lessFF (fun _ _ _ => rfl) hr hl h).swap
        (fun _ _ => rfl)
    | greaterEqual =>
      exact (Safe.ff_form (op := .lessEqual) Safe.lessEqualFF (fun _ _ _ => rfl) hr hl h).swap
        (fun _ _ => rfl)
  | fr l r =>
    obtain ⟨hl, rfl⟩ := ha
    cases op with
    | equalTo => exact fr_form (op := .equalTo) _ (fun _ _ _ => rfl) hl h
    | notEqualTo =>
      simp only [Safe.cmp, Safe.notEqualToFR, bind_eq_clean, pure_eq_ok, and_true] at h
      obtain ⟨b', h, rfl⟩ := h
      exact (fr_form (op := .equalTo) _ (fun _ _ _ => rfl) hl h).not
    | less => exact fr_form (op := .less) _ (fun _ _ _ => rfl) hl h
    | lessEqual => exact fr_form (op := .lessEqual) _ (fun _ _ _ => rfl) hl h
    | greater =>
      exact (rf_form (op := .less) Safe.lessRF (fun _ _ _ => rfl) hl h).swap (fun _ _ => rfl)
    | greaterEqual =>
      exact (rf_form (op := .lessEqual) Safe.lessEqualRF (fun _ _ _ => rfl) hl h).swap
        (fun _ _ => rfl)
  | rf l r =>
    obtain ⟨rfl, hr⟩ := ha
    cases op with
    | equalTo =>
      exact (fr_form (op := .equalTo) Safe.equalToFR (fun _ _ _ => rfl) hr h).swap
        (fun p q => by simp [CmpOp.test, eq_comm])
    | notEqualTo =>
      simp only [Safe.cmp, Safe.notEqualToRF, Safe.notEqualToFR, bind_eq_clean, pure_eq_ok,
        and_true] at h
      obtain ⟨b', h, rfl⟩ := h
      exact ((fr_form (op := .equalTo) Safe.equalToFR (fun _ _ _ => rfl) hr h).swap
        (fun p q => by simp [CmpOp.test, eq_comm])).not
    | less => exact rf_form (op := .less) _ (fun _ _ _ => rfl) hr h
    | lessEqual => exact rf_form (op := .lessEqual) _ (fun _ _ _ => rfl) hr h
    | greater =>
      exact (fr_form (op := .less) Safe.lessFR (fun _ _ _ => rfl) hr h).swap (fun _ _ => rfl)
    | greaterEqual =>
      exact (fr_form (op := .lessEqual) Safe.lessEqualFR (fun _ _ _ => rfl) hr h).swap
        (fun _ _ => rfl)

theorem Fast.cmp_form {op : CmpOp} {a : Args} (ha : a.Denote x y) (h : Fast.cmp T op a ⇓ b) :
    CmpForm op x y (Ops.fast.OrderSafe a) b := by
  cases a with
  | ff l r =>
    obtain ⟨hl, hr⟩ := ha
    cases op with
    | equalTo => exact Fast.ff_form (op := .equalTo) _ (fun _ _ _ => rfl) hl hr h
    | notEqualTo =>
      simp only [Fast.cmp, Fast.notEqualToFF, bind_eq_clean, pure_eq_ok, and_true] at h
      obtain ⟨b', h, rfl⟩ := h
      exact (Fast.ff_form (op := .equalTo) _ (fun _ _ _ => rfl) hl hr h).not
    | less => exact Fast.ff_form (op := .less) _ (fun _ _ _ => rfl) hl hr h
    | lessEqual => exact Fast.ff_form (op := .lessEqual) _ (fun _ _ _ => rfl) hl hr h
    | greater =>
      have := (Fast.ff_form (op := .less) Fast.lessFF (fun _ _ _ => rfl) hr hl h).swap
        (op' := .greater) (fun _ _ => rfl)
      rwa [mul_comm] at this
    | greaterEqual =>
      have := (Fast.ff_form (op := .lessEqual) Fast.lessEqualFF (fun _ _ _ => rfl) hr hl h).swap
        (op' := .greaterEqual) (fun _ _ => rfl)
      rwa [mul_comm] at this
  | fr l r =>
    obtain ⟨hl, rfl⟩ := ha
    cases op with
    | equalTo => exact fr_form (op := .equalTo) _ (fun _ _ _ => rfl) hl h
    | notEqualTo =>
      simp only [Fast.cmp, Fast.notEqualToFR, bind_eq_clean, pure_eq_ok, and_true] at h
      obtain ⟨b', h, rfl⟩ := h
      exact (fr_form (op := .equalTo) _ (fun _ _ _ => rfl) hl h).not
    | less => exact fr_form (op := .less) _ (fun _ _ _ => rfl) hl h
    | lessEqual => exact fr_form (op := .lessEqual) _ (fun _ _ _ => rfl) hl h
    | greater =>
      exact (rf_form (op := .less) Fast.lessRF (fun _ _ _ => rfl) hl h).swap (fun _ _ => rfl)
    | greaterEqual =>
      exact (rf_form (op := .lessEqual) Fast.lessEqualRF (fun _ _ _ => rfl) hl h).swap
        (fun _ _ => rfl)
  | rf l r =>
    obtain ⟨rfl, hr⟩ := ha
    cases op with
    | equalTo =>
      exact (fr_form (op := .equalTo) Fast.equalToFR (fun _ _ _ => rfl) hr h).swap
        (fun p q => by simp [CmpOp.test, eq_comm])
    | notEqualTo =>
      simp only [Fast.cmp, Fast.notEqualToRF, Fast.equalToRF, bind_eq_clean, pure_eq_ok,
        and_true] at h
      obtain ⟨b', h, rfl⟩ := h
      exact ((fr_form (op := .equalTo) Fast.equalToFR (fun _ _ _ => rfl) hr h).swap
        (fun p q => by simp [CmpOp.test, eq_comm])).not
    | less => exact rf_form (op := .less) _ (fun _ _ _ => rfl) hr h
    | lessEqual => exact rf_form (op := .lessEqual) _ (fun _ _ _ => rfl) hr h
    | greater =>
      exact (fr_form (op := .less) Fast.lessFR (fun _ _ _ => rfl) hr h).swap (fun _ _ => rfl)
    | greaterEqual =>
      exact (fr_form (op := .lessEqual) Fast.lessEqualFR (fun _ _ _ => rfl) hr h).swap
        (fun _ _ => rfl)

theorem Ops.orderSafe_of_posDen {o : Ops} {a : Args} (h : a.PosDen) : o.OrderSafe a := by
  induction o with
  | safe => cases a <;> trivial
  | fast =>
    cases a with
    | ff l r => exact mul_pos h.1 h.2
    | fr l r => exact h
    | rf l r => exact h
  | reducedInput o mode ih => cases mode <;> trivial
  | reducedOutput o mode ih => exact ih

theorem Raw.reduce_ignore_sign {f s : Raw} (h : f.den ≠ 0) (hr : f.reduce T .ignoreSigns ⇓ s) :
    (0 < s.den ↔ 0 < f.den) := by
  obtain ⟨g, hg, hn, hd, -, h1, -⟩ := Raw.reduce_clean_spec h hr
  have := h1 rfl
  rw [hd]
  exact (mul_pos_iff_of_pos_right this).symm

/-- `OrderSafe` only looks at the signs of the denominators. -/
theorem Ops.orderSafe_ff_congr {o : Ops} {l r l' r' : Raw} (hl : l.den ≠ 0) (hr : r.den ≠ 0)
    (hl0 : l'.den ≠ 0) (hr0 : r'.den ≠ 0)
    (hl' : 0 < l'.den ↔ 0 < l.den) (hr' : 0 < r'.den ↔ 0 < r.den) :
    o.OrderSafe (.ff l' r') ↔ o.OrderSafe (.ff l r) := by
  induction o with
  | safe => exact Iff.rfl
  | fast =>
    simp only [Ops.OrderSafe, mul_pos_iff]
    have e1 : l'.den < 0 ↔ l.den < 0 := by omega
    have e2 : r'.den < 0 ↔ r.den < 0 := by omega
    rw [hl', hr', e1, e2]
  | reducedInput o mode ih => cases mode <;> first | exact Iff.rfl | exact ih
  | reducedOutput o mode ih => exact ih

theorem Ops.orderSafe_fr_congr {o : Ops} {l l' : Raw} {r : ℤ}
    (hl' : 0 < l'.den ↔ 0 < l.den) : o.OrderSafe (.fr l' r) ↔ o.OrderSafe (.fr l r) := by
  induction o with
  | safe => exact hl'
  | fast => exact hl'
  | reducedInput o mode ih => cases mode <;> first | exact Iff.rfl | exact ih
  | reducedOutput o mode ih => exact ih

theorem Ops.orderSafe_rf_congr {o : Ops} {l l' : Raw} {r : ℤ}
    (hl' : 0 < l'.den ↔ 0 < l.den) : o.OrderSafe (.rf r l') ↔ o.OrderSafe (.rf r l) := by
  induction o with
  | safe => exact hl'
  | fast => exact hl'
  | reducedInput o mode ih => cases mode <;> first | exact Iff.rfl | exact ih
  | reducedOutput o mode ih => exact ih

theorem Args.reduce_normalize_posDen {a a' : Args} (ha : a.Denote x y)
    (h : a.reduce T .normalizeSigns ⇓ a') : a'.PosDen := by
  cases a with
  | ff l r =>
    simp only [Args.reduce, bind_eq_clean, pure_eq_ok, and_true] at h
    obtain ⟨l', hl, r', hr, rfl⟩ := h
    exact ⟨(Raw.reduce_canonical ha.1.1 hl).1, (Raw.reduce_canonical ha.2.1 hr).1⟩
  | fr l r =>
    simp only [Args.reduce, bind_eq_clean, pure_eq_ok, and_true] at h
    obtain ⟨l', hl, rfl⟩ := h
    exact (Raw.reduce_canonical ha.1.1 hl).1
  | rf l r =>
    simp only [Args.reduce, bind_eq_clean, pure_eq_ok, and_true] at h
    obtain ⟨l', hl, rfl⟩ := h
    exact (Raw.reduce_canonical ha.2.1 hl).1

theorem Args.reduce_ignore_orderSafe {o : Ops} {a a' : Args} (ha : a.Denote x y)
    (h : a.reduce T .ignoreSigns ⇓ a') : o.OrderSafe a' ↔ o.OrderSafe a := by
  cases a with
  | ff l r =>
    simp only [Args.reduce, bind_eq_clean, pure_eq_ok, and_true] at h
    obtain ⟨l', hl, r', hr, rfl⟩ := h
    exact Ops.orderSafe_ff_congr ha.1.1 ha.2.1 (Raw.reduce_clean_defined ha.1.1 hl)
      (Raw.reduce_clean_defined ha.2.1 hr) (Raw.reduce_ignore_sign ha.1.1 hl)
      (Raw.reduce_ignore_sign ha.2.1 hr)
  | fr l r =>
    simp only [Args.reduce, bind_eq_clean, pure_eq_ok, and_true] at h
    obtain ⟨l', hl, rfl⟩ := h
    exact Ops.orderSafe_fr_congr (Raw.reduce_ignore_sign ha.1.1 hl)
  | rf l r =>
    simp only [Args.reduce, bind_eq_clean, pure_eq_ok, and_true] at h
    obtain ⟨l', hl, rfl⟩ := h
    exact Ops.orderSafe_rf_congr (Raw.reduce_ignore_sign ha.2.1 hl)

theorem Ops.cmp_form {o : Ops} {op : CmpOp} {a : Args} (ha : a.Denote x y)
    (h : o.cmp T op a ⇓ b) : CmpForm op x y (o.OrderSafe a) b := by
  induction o generalizing a with
  | safe => exact Safe.cmp_form ha h
  | fast => exact Fast.cmp_form ha h
  | reducedInput o mode ih =>
    simp only [Ops.cmp, bind_eq_clean] at h
    obtain ⟨a', ha', h⟩ := h
    have := ih (Args.reduce_denote ha ha') h
    cases mode
    · have hs := Ops.orderSafe_of_posDen (o := o) (Args.reduce_normalize_posDen ha ha')
      simp only [hs] at this
      exact this
    · rw [Args.reduce_ignore_orderSafe ha ha'] at this
      exact this
  | reducedOutput o mode ih => exact ih ha h

end

end Ieme
