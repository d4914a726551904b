import Verif.Lemmas.Closure

/-!
# Undefined operands
-/

namespace Ieme

open Res IntTy

variable {T : IntTy}

theorem mul_zero_ok (a : ℤ) : T.mul a 0 ⇓ 0 := mul_clean.2 ⟨by simp, by simp⟩
theorem zero_mul_ok (a : ℤ) : T.mul 0 a ⇓ 0 := mul_clean.2 ⟨by simp, by simp⟩

theorem mul_zero_eq {a r : ℤ} {w : Bool} (h : T.mul a 0 = .ok r w) : r = 0 := by
  rw [mul_zero_ok] at h; simp at h; exact h.1.symm
theorem zero_mul_eq {a r : ℤ} {w : Bool} (h : T.mul 0 a = .ok r w) : r = 0 := by
  rw [zero_mul_ok] at h; simp at h; exact h.1.symm

theorem Args.reduce_hasUndefined {mode : ReduceMode} {a a' : Args} {w : Bool}
    (h : a.reduce T mode = .ok a' w) (hu : a.HasUndefined) : a'.HasUndefined := by
  cases a with
  | ff l r =>
    simp only [Args.reduce, bind_eq_ok, pure_eq_ok] at h
    obtain ⟨l', _, _, h1, ⟨r', _, _, h2, ⟨rfl, -⟩, -⟩, -⟩ := h
    rcases hu with hu | hu
    · left
      rw [Raw.reduce_undefined mode hu] at h1
      simp only [Res.ok.injEq] at h1
      rw [← h1.1]
    · right
      rw [Raw.reduce_undefined mode hu] at h2
      simp only [Res.ok.injEq] at h2
      rw [← h2.1]
  | fr l r =>
    simp only [Args.reduce, bind_eq_ok, pure_eq_ok] at h
    obtain ⟨l', _, _, h1, ⟨rfl, -⟩, -⟩ := h
    rw [Raw.reduce_undefined mode hu] at h1
    simp only [Res.ok.injEq] at h1
    show l'.den = 0
    rw [← h1.1]
  | rf l r =>
    simp only [Args.reduce, bind_eq_ok, pure_eq_ok] at h
    obtain ⟨l', _, _, h1, ⟨rfl, -⟩, -⟩ := h
    rw [Raw.reduce_undefined mode hu] at h1
    simp only [Res.ok.injEq] at h1
    show l'.den = 0
    rw [← h1.1]

theorem Safe.cmp_ff_undefined (op : CmpOp) {l r : Raw} (hu : l.den = 0 ∨ r.den = 0) :
    Safe.cmp T op (.ff l r) ⇓ op.undefAnswer := by
  have h1 : (l.isUndefined || r.isUndefined) = true := by
    simpa [Raw.isUndefined_iff] using hu
  have h2 : (r.isUndefined || l.isUndefined) = true := by rw [Bool.or_comm]; exact h1
  cases op <;> simp only [Safe.cmp, Safe.equalToFF, Safe.notEqualToFF, Safe.lessFF,
    Safe.lessEqualFF, Safe.greaterFF, Safe.greaterEqualFF, h1, h2, if_true, pure_def,
    ok_bind_false, CmpOp.undefAnswer, Bool.not_false]

theorem cmp_defined_false {x : Res ℤ} {g : ℤ → Bool} {b w : Bool} {f : Raw} (hf : f.den = 0)
    (h : (x >>= fun p => pure (g p && f.isDefined)) = .ok b w) : b = false := by
  simp only [bind_eq_ok, pure_eq_ok] at h
  obtain ⟨_, _, _, -, ⟨rfl, -⟩, -⟩ := h
  simp [Raw.isDefined_eq_false.2 hf]

theorem Safe.cmp_undefined {op : CmpOp} {a : Args} {b w : Bool} (hu : a.HasUndefined)
    (h : Safe.cmp T op a = .ok b w) : b = op.undefAnswer := by
  cases a with
  | ff l r =>
    rw [Safe.cmp_ff_undefined op hu] at h
    simp only [Res.ok.injEq] at h
    exact h.1.symm
  | fr l r =>
    cases op with
    | notEqualTo =>
      simp only [Safe.cmp, Safe.notEqualToFR, bind_eq_ok, pure_eq_ok] at h
      obtain ⟨c, _, _, hc, ⟨rfl, -⟩, -⟩ := h
      have : c = false := cmp_defined_false hu hc
      simp [this, CmpOp.undefAnswer]
    | equalTo => exact cmp_defined_false hu h
    | less => exact cmp_defined_false hu h
    | lessEqual => exact cmp_defined_false hu h
    | greater => exact cmp_defined_false hu h
    | greaterEqual => exact cmp_defined_false hu h
  | rf l r =>
    cases op with
    | notEqualTo =>
      simp only [Safe.cmp, Safe.notEqualToRF, Safe.notEqualToFR, bind_eq_ok, pure_eq_ok] at h
      obtain ⟨c, _, _, hc, ⟨rfl, -⟩, -⟩ := h
      have : c = false := cmp_defined_false hu hc
      simp [this, CmpOp.undefAnswer]
    | equalTo => exact cmp_defined_false hu h
    | less => exact cmp_defined_false hu h
    | lessEqual => exact cmp_defined_false hu h
    | greater => exact cmp_defined_false hu h
    | greaterEqual => exact cmp_defined_false hu h

theorem fast_ff_undefined {x y : Res ℤ} {g : ℤ → ℤ → Bool} {b w : Bool} {l r : Raw}
    (hu : l.den = 0 ∨ r.den = 0)
    (h : (do let p ← x; let q ← y; return (g p q && l.isDefined && r.isDefined)) = .ok b w) :
    b = false := by
  simp only [bind_eq_ok, pure_eq_ok] at h
  obtain ⟨_, _, _, -, ⟨_, _, _, -, ⟨rfl, -⟩, -⟩, -⟩ := h
  rcases hu with hu | hu <;> simp [Raw.isDefined_eq_false.2 hu]

theorem Fast.cmp_undefined {op : CmpOp} {a : Args} {b w : Bool} (hu : a.HasUndefined)
    (h : Fast.cmp T op a = .ok b w) : b = op.undefAnswer := by
  cases a with
  | ff l r =>
    cases op with
    | notEqualTo =>
      simp only [Fast.cmp, Fast.notEqualToFF, bind_eq_ok, pure_eq_ok] at h
      obtain ⟨c, _, _, hc, ⟨rfl, -⟩, -⟩ := h
      have : c = false := fast_ff_undefined (g := fun p q => decide (p = q)) hu hc
      simp [this, CmpOp.undefAnswer]
    | equalTo => exact fast_ff_undefined (g := fun p q => decide (p = q)) hu h
    | less => exact fast_ff_undefined (g := fun p q => decide (p < q)) hu h
    | lessEqual => exact fast_ff_undefined (g := fun p q => decide (p ≤ q)) hu h
    | greater => exact fast_ff_undefined (g := fun p q => decide (p < q)) (Or.symm hu) h
    | greaterEqual => exact fast_ff_undefined (g := fun p q => decide (p ≤ q)) (Or.symm hu) h
  | fr l r =>
    cases op with
    | notEqualTo =>
      simp only [Fast.cmp, Fast.notEqualToFR, bind_eq_ok, pure_eq_ok] at h
      obtain ⟨c, _, _, hc, ⟨rfl, -⟩, -⟩ := h
      have : c = false := cmp_defined_false hu hc
      simp [this, CmpOp.undefAnswer]
    | equalTo => exact cmp_defined_false hu h
    | less => exact cmp_defined_false hu h
    | lessEqual => exact cmp_defined_false hu h
    | greater => exact cmp_defined_false hu h
    | greaterEqual => exact cmp_defined_false hu h
  | rf l r =>
    cases op with
    | notEqualTo =>
      simp only [Fast.cmp, Fast.notEqualToRF, Fast.equalToRF, bind_eq_ok, pure_eq_ok] at h
      obtain ⟨c, _, _, hc, ⟨rfl, -⟩, -⟩ := h
      have : c = false := cmp_defined_false hu hc
      simp [this, CmpOp.undefAnswer]
    | equalTo => exact cmp_defined_false hu h
    | less => exact cmp_defined_false hu h
    | lessEqual => exact cmp_defined_false hu h
    | greater => exact cmp_defined_false hu h
    | greaterEqual => exact cmp_defined_false hu h

theorem Ops.cmp_undefined {o : Ops} {op : CmpOp} {a : Args} {b w : Bool} (hu : a.HasUndefined)
    (h : o.cmp T op a = .ok b w) : b = op.undefAnswer := by
  induction o generalizing a b w with
  | safe => exact Safe.cmp_undefined hu h
  | fast => exact Fast.cmp_undefined hu h
  | reducedInput o mode ih =>
    simp only [Ops.cmp, bind_eq_ok] at h
    obtain ⟨a', _, _, ha', h, -⟩ := h
    exact ih (Args.reduce_hasUndefined ha' hu) h
  | reducedOutput o mode ih => exact ih hu h

/-! ## Arithmetic -/

/-- Undefined fractions among the operands are `0/0`. -/
def Args.ZeroUndef : Args → Prop
  | .ff l r => (l.den = 0 → l.num = 0) ∧ (r.den = 0 → r.num = 0)
  | .fr l _ => l.den = 0 → l.num = 0
  | .rf _ r => r.den = 0 → r.num = 0

theorem Args.ZeroUndef.not_lost {a : Args} (h : a.ZeroUndef) : ¬ a.LostDivisor := by
  cases a with
  | ff l r => rintro ⟨-, h1, h2⟩; exact h2 (h.2 h1)
  | fr l r => exact id
  | rf l r => rintro ⟨h1, h2⟩; exact h2 (h h1)

theorem Raw.reduce_undef_zero {mode : ReduceMode} {f r : Raw} {w : Bool}
    (h : f.reduce T mode = .ok r w) (hf : f.den = 0) : r = ⟨0, 0⟩ := by
  rw [Raw.reduce_undefined mode hf] at h
  simp only [Res.ok.injEq] at h
  exact h.1.symm

/-- A finished `reduce` of a defined fraction stays defined, even if wrapping happened. -/
theorem Raw.reduce_defined {mode : ReduceMode} {f r : Raw} {w : Bool}
    (h : f.reduce T mode = .ok r w) (hf : f.den ≠ 0) : r.den ≠ 0 := by
  have key : ∀ {r w}, f.reduceIgnoreSigns T = .ok r w → r.den ≠ 0 ∧ T.InRange r.den := by
    intro r w hr
    obtain ⟨-, -, -, h4, -, g, -, -, hd, -⟩ := (Raw.reduceIgnoreSigns_eq_ok hf).1 hr
    refine ⟨?_, h4⟩
    rintro e; rw [e] at hd; simp at hd; exact hf hd
  cases mode
  · simp only [Raw.reduce, Raw.reduceNormalizeSigns, bind_eq_ok] at h
    obtain ⟨s, _, _, hs, h, -⟩ := h
    obtain ⟨h0, h1⟩ := key hs
    unfold Raw.normalizeSigns at h
    split at h
    · simp only [pure_eq_ok] at h; rw [← h.1]; exact h0
    · rename_i hneg
      cases hsg : T.signed
      · have := h1.nonneg hsg; omega
      · simp only [bind_eq_ok, pure_eq_ok] at h
        obtain ⟨n, _, _, -, ⟨d, wd, _, hd, ⟨rfl, -⟩, -⟩, -⟩ := h
        have := (arith_noWrap hsg (-s.den)).flag hd
        subst this
        obtain ⟨-, rfl⟩ := neg_clean.1 hd
        simpa using h0
  · exact (key h).1

theorem Args.reduce_zeroUndef {mode : ReduceMode} {a a' : Args} {w : Bool}
    (h : a.reduce T mode = .ok a' w) : a'.ZeroUndef := by
  have key : ∀ {f r : Raw} {w : Bool}, f.reduce T mode = .ok r w → r.den = 0 → r.num = 0 := by
    intro f r w h hr
    by_cases hf : f.den = 0
    · rw [Raw.reduce_undef_zero h hf]
    · exact absurd hr (Raw.reduce_defined h hf)
  cases a with
  | ff l r =>
    simp only [Args.reduce, bind_eq_ok, pure_eq_ok] at h
    obtain ⟨l', _, _, h1, ⟨r', _, _, h2, ⟨rfl, -⟩, -⟩, -⟩ := h
    exact ⟨key h1, key h2⟩
  | fr l r =>
    simp only [Args.reduce, bind_eq_ok, pure_eq_ok] at h
    obtain ⟨l', _, _, h1, ⟨rfl, -⟩, -⟩ := h
    exact key h1
  | rf l r =>
    simp only [Args.reduce, bind_eq_ok, pure_eq_ok] at h
    obtain ⟨l', _, _, h1, ⟨rfl, -⟩, -⟩ := h
    exact key h1

theorem lcm_undefined {l r : ℤ} {L : ℤ} {w : Bool} (hu : l = 0 ∨ r = 0)
    (h : T.lcm l r = .ok L w) : L = 0 := by
  obtain ⟨-, -, -, rfl, -⟩ := lcm_eq_ok.1 h
  rcases hu with rfl | rfl <;> simp

/-- `safe`'s fraction-fraction sum, difference and remainder never finish when an operand
is undefined: the cofactor of the zero common denominator is a division by zero. -/
theorem Safe.ff_undefined_fault {op : ArithOp} (hop : op = .plus ∨ op = .minus ∨ op = .modulus)
    {l r : Raw} (hu : l.den = 0 ∨ r.den = 0) : ¬ (Safe.arith T op (.ff l r)).Finishes := by
  rintro ⟨res, w, h⟩
  have key : ∀ {k : ℤ → ℤ → ℤ → Res Raw}, (do
      let lcm ← T.lcm l.den r.den
      let ql ← T.div lcm l.den
      let a ← T.mul ql l.num
      let qr ← T.div lcm r.den
      let b ← T.mul qr r.num
      k lcm a b) = .ok res w → False := by
    intro k h
    simp only [bind_eq_ok] at h
    obtain ⟨L, _, _, hL, ⟨_, _, _, h1, ⟨_, _, _, -, ⟨_, _, _, h2, -⟩, -⟩, -⟩, -⟩ := h
    obtain ⟨h1, -⟩ := div_eq_ok.1 h1
    obtain ⟨h2, -⟩ := div_eq_ok.1 h2
    rcases hu with hu | hu <;> contradiction
  rcases hop with rfl | rfl | rfl
  · exact key (k := fun L a b => do let n ← T.add a b; return ⟨n, L⟩) h
  · exact key (k := fun L a b => do let n ← T.sub a b; return ⟨n, L⟩) h
  · exact key (k := fun L a b => do let n ← T.mod a b; return ⟨n, L⟩) h

theorem Safe.arith_undefined {op : ArithOp} {a : Args} {res : Raw} {w : Bool}
    (hu : a.HasUndefined) (hd : op = .divides → ¬ a.LostDivisor)
    (h : Safe.arith T op a = .ok res w) : res.den = 0 := by
  cases a with
  | ff l r =>
    cases op
    · exact (Safe.ff_undefined_fault (by simp) hu ⟨_, _, h⟩).elim
    · exact (Safe.ff_undefined_fault (by simp) hu ⟨_, _, h⟩).elim
    · simp only [Safe.arith, Safe.multipliesFF, bind_eq_ok, pure_eq_ok] at h
      obtain ⟨_, _, _, h1, ⟨_, _, _, h2, ⟨rfl, -⟩, -⟩, -⟩ := h
      rcases hu with hu | hu
      · rw [hu] at h2; exact zero_mul_eq h2
      · rw [hu] at h2; exact mul_zero_eq h2
    · simp only [Safe.arith, Safe.dividesFF, bind_eq_ok, pure_eq_ok] at h
      obtain ⟨_, _, _, h1, ⟨_, _, _, h2, ⟨rfl, -⟩, -⟩, -⟩ := h
      by_cases hl : l.den = 0
      · rw [hl] at h2; exact zero_mul_eq h2
      · have hr : r.den = 0 := hu.resolve_left hl
        have : r.num = 0 := by
          by_contra hc; exact hd rfl ⟨hl, hr, hc⟩
        rw [this] at h2; exact mul_zero_eq h2
    · exact (Safe.ff_undefined_fault (by simp) hu ⟨_, _, h⟩).elim
  | fr l r =>
    have hu : l.den = 0 := hu
    cases op
    · simp only [Safe.arith, Safe.plusFR, bind_eq_ok, pure_eq_ok] at h
      obtain ⟨_, _, _, -, ⟨_, _, _, h2, ⟨rfl, -⟩, -⟩, -⟩ := h; exact hu
    · simp only [Safe.arith, Safe.minusFR, bind_eq_ok, pure_eq_ok] at h
      obtain ⟨_, _, _, -, ⟨_, _, _, h2, ⟨rfl, -⟩, -⟩, -⟩ := h; exact hu
    · simp only [Safe.arith, Safe.multipliesFR, bind_eq_ok, pure_eq_ok] at h
      obtain ⟨_, _, _, h2, ⟨rfl, -⟩, -⟩ := h; exact hu
    · simp only [Safe.arith, Safe.dividesFR, bind_eq_ok, pure_eq_ok] at h
      obtain ⟨_, _, _, h2, ⟨rfl, -⟩, -⟩ := h
      rw [hu] at h2; exact zero_mul_eq h2
    · simp only [Safe.arith, Safe.modulusFR, bind_eq_ok, pure_eq_ok] at h
      obtain ⟨_, _, _, -, ⟨_, _, _, h2, ⟨rfl, -⟩, -⟩, -⟩ := h; exact hu
  | rf l r =>
    have hu : r.den = 0 := hu
    cases op
    · simp only [Safe.arith, Safe.plusRF, Safe.plusFR, bind_eq_ok, pure_eq_ok] at h
      obtain ⟨_, _, _, -, ⟨_, _, _, h2, ⟨rfl, -⟩, -⟩, -⟩ := h; exact hu
    · simp only [Safe.arith, Safe.minusRF, bind_eq_ok, pure_eq_ok] at h
      obtain ⟨_, _, _, -, ⟨_, _, _, h2, ⟨rfl, -⟩, -⟩, -⟩ := h; exact hu
    · simp only [Safe.arith, Safe.multipliesRF, Safe.multipliesFR, bind_eq_ok, pure_eq_ok] at h
      obtain ⟨_, _, _, h2, ⟨rfl, -⟩, -⟩ := h; exact hu
    · simp only [Safe.arith, Safe.dividesRF, bind_eq_ok, pure_eq_ok] at h
      obtain ⟨_, _, _, h2, ⟨rfl, -⟩, -⟩ := h
      by_contra hc; exact hd rfl ⟨hu, hc⟩
    · simp only [Safe.arith, Safe.modulusRF, bind_eq_ok, pure_eq_ok] at h
      obtain ⟨_, _, _, -, ⟨_, _, _, h2, ⟨rfl, -⟩, -⟩, -⟩ := h; exact hu

theorem Fast.arith_undefined {op : ArithOp} {a : Args} {res : Raw} {w : Bool}
    (hu : a.HasUndefined) (hd : op = .divides → ¬ a.LostDivisor)
    (h : Fast.arith T op a = .ok res w) : res.den = 0 := by
  cases a with
  | ff l r =>
    have hmul : ∀ {d w}, T.mul l.den r.den = .ok d w → d = 0 := by
      intro d w h2
      rcases hu with hu | hu
      · rw [hu] at h2; exact zero_mul_eq h2
      · rw [hu] at h2; exact mul_zero_eq h2
    cases op
    · simp only [Fast.arith, Fast.plusFF, bind_eq_ok, pure_eq_ok] at h
      obtain ⟨_, _, _, -, ⟨_, _, _, -, ⟨_, _, _, -, ⟨_, _, _, h2, ⟨rfl, -⟩, -⟩, -⟩, -⟩, -⟩ := h
      exact hmul h2
    · simp only [Fast.arith, Fast.minusFF, bind_eq_ok, pure_eq_ok] at h
      obtain ⟨_, _, _, -, ⟨_, _, _, -, ⟨_, _, _, -, ⟨_, _, _, h2, ⟨rfl, -⟩, -⟩, -⟩, -⟩, -⟩ := h
      exact hmul h2
    · simp only [Fast.arith, Fast.multipliesFF, bind_eq_ok, pure_eq_ok] at h
      obtain ⟨_, _, _, h1, ⟨_, _, _, h2, ⟨rfl, -⟩, -⟩, -⟩ := h
      exact hmul h2
    · simp only [Fast.arith, Fast.dividesFF, bind_eq_ok, pure_eq_ok] at h
      obtain ⟨_, _, _, h1, ⟨_, _, _, h2, ⟨rfl, -⟩, -⟩, -⟩ := h
      by_cases hl : l.den = 0
      · rw [hl] at h2; exact zero_mul_eq h2
      · have hr : r.den = 0 := hu.resolve_left hl
        have : r.num = 0 := by
          by_contra hc; exact hd rfl ⟨hl, hr, hc⟩
        rw [this] at h2; exact mul_zero_eq h2
    · simp only [Fast.arith, Fast.modulusFF, bind_eq_ok, pure_eq_ok] at h
      obtain ⟨_, _, _, -, ⟨_, _, _, -, ⟨_, _, _, -, ⟨_, _, _, h2, ⟨rfl, -⟩, -⟩, -⟩, -⟩, -⟩ := h
      exact hmul h2
  | fr l r =>
    have hu : l.den = 0 := hu
    cases op
    · simp only [Fast.arith, Fast.plusFR, bind_eq_ok, pure_eq_ok] at h
      obtain ⟨_, _, _, -, ⟨_, _, _, h2, ⟨rfl, -⟩, -⟩, -⟩ := h; exact hu
    · simp only [Fast.arith, Fast.minusFR, bind_eq_ok, pure_eq_ok] at h
      obtain ⟨_, _, _, -, ⟨_, _, _, h2, ⟨rfl, -⟩, -⟩, -⟩ := h; exact hu
    · simp only [Fast.arith, Fast.multipliesFR, bind_eq_ok, pure_eq_ok] at h
      obtain ⟨_, _, _, h2, ⟨rfl, -⟩, -⟩ := h; exact hu
    · simp only [Fast.arith, Fast.dividesFR, bind_eq_ok, pure_eq_ok] at h
      obtain ⟨_, _, _, h2, ⟨rfl, -⟩, -⟩ := h
      rw [hu] at h2; exact zero_mul_eq h2
    · simp only [Fast.arith, Fast.modulusFR, bind_eq_ok, pure_eq_ok] at h
      obtain ⟨_, _, _, -, ⟨_, _, _, h2, ⟨rfl, -⟩, -⟩, -⟩ := h; exact hu
  | rf l r =>
    have hu : r.den = 0 := hu
    cases op
    · simp only [Fast.arith, Fast.plusRF, Fast.plusFR, bind_eq_ok, pure_eq_ok] at h
      obtain ⟨_, _, _, -, ⟨_, _, _, h2, ⟨rfl, -⟩, -⟩, -⟩ := h; exact hu
    · simp only [Fast.arith, Fast.minusRF, bind_eq_ok, pure_eq_ok] at h
      obtain ⟨_, _, _, -, ⟨_, _, _, h2, ⟨rfl, -⟩, -⟩, -⟩ := h; exact hu
    · simp only [Fast.arith, Fast.multipliesRF, Fast.multipliesFR, bind_eq_ok, pure_eq_ok] at h
      obtain ⟨_, _, _, h2, ⟨rfl, -⟩, -⟩ := h; exact hu
    · simp only [Fast.arith, Fast.dividesRF, bind_eq_ok, pure_eq_ok] at h
      obtain ⟨_, _, _, h2, ⟨rfl, -⟩, -⟩ := h
      by_contra hc; exact hd rfl ⟨hu, hc⟩
    · simp only [Fast.arith, Fast.modulusRF, bind_eq_ok, pure_eq_ok] at h
      obtain ⟨_, _, _, -, ⟨_, _, _, h2, ⟨rfl, -⟩, -⟩, -⟩ := h; exact hu

theorem Ops.arith_undefined {o : Ops} {op : ArithOp} {a : Args} {res : Raw} {w : Bool}
    (hu : a.HasUndefined) (hd : op = .divides → o.ReducesInput ∨ ¬ a.LostDivisor)
    (h : o.arith T op a = .ok res w) : res.den = 0 := by
  induction o generalizing a res w with
  | safe => exact Safe.arith_undefined hu (fun e => (hd e).resolve_left id) h
  | fast => exact Fast.arith_undefined hu (fun e => (hd e).resolve_left id) h
  | reducedInput o mode ih =>
    simp only [Ops.arith, bind_eq_ok] at h
    obtain ⟨a', _, _, ha', h, -⟩ := h
    exact ih (Args.reduce_hasUndefined ha' hu)
      (fun _ => Or.inr (Args.reduce_zeroUndef ha').not_lost) h
  | reducedOutput o mode ih =>
    simp only [Ops.arith, bind_eq_ok] at h
    obtain ⟨r, _, _, hr, h, -⟩ := h
    rw [Raw.reduce_undef_zero h (ih hu hd hr)]

theorem Ops.negate_undefined {o : Ops} {v res : Raw} {w : Bool} (hu : v.den = 0)
    (h : o.negate T v = .ok res w) : res.den = 0 := by
  induction o generalizing v res w with
  | safe =>
    simp only [Ops.negate, Safe.negate, bind_eq_ok, pure_eq_ok] at h
    obtain ⟨_, _, _, -, ⟨rfl, -⟩, -⟩ := h; exact hu
  | fast =>
    simp only [Ops.negate, Fast.negate, bind_eq_ok, pure_eq_ok] at h
    obtain ⟨_, _, _, -, ⟨rfl, -⟩, -⟩ := h; exact hu
  | reducedInput o mode ih =>
    simp only [Ops.negate, bind_eq_ok] at h
    obtain ⟨a', _, _, ha', h, -⟩ := h
    refine ih ?_ h
    rw [Raw.reduce_undef_zero ha' hu]
  | reducedOutput o mode ih =>
    simp only [Ops.negate, bind_eq_ok] at h
    obtain ⟨r, _, _, hr, h, -⟩ := h
    rw [Raw.reduce_undef_zero h (ih hu hr)]

end Ieme
