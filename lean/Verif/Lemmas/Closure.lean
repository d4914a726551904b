import Verif.Lemmas.Progress

/-!
# Range closure and absence of wrap-around for every policy
-/

namespace Ieme

open Res IntTy

variable {T : IntTy}

theorem add_inRange {a b r : ℤ} {w : Bool} (h : T.add a b = .ok r w) : T.InRange r := arith_inRange h
theorem sub_inRange {a b r : ℤ} {w : Bool} (h : T.sub a b = .ok r w) : T.InRange r := arith_inRange h
theorem mul_inRange {a b r : ℤ} {w : Bool} (h : T.mul a b = .ok r w) : T.InRange r := arith_inRange h
theorem neg_inRange {a r : ℤ} {w : Bool} (h : T.neg a = .ok r w) : T.InRange r := arith_inRange h
theorem div_inRange {a b r : ℤ} {w : Bool} (h : T.div a b = .ok r w) : T.InRange r := by
  obtain ⟨-, h1, rfl, -⟩ := div_eq_ok.1 h; exact h1
theorem lcm_inRange {a b r : ℤ} {w : Bool} (h : T.lcm a b = .ok r w) : T.InRange r := by
  obtain ⟨-, -, h1, rfl, -⟩ := lcm_eq_ok.1 h; exact h1
theorem mod_inRange {a b r : ℤ} {w : Bool} (ha : T.InRange a) (h : T.mod a b = .ok r w) :
    T.InRange r := by
  obtain ⟨-, -, rfl, -⟩ := mod_eq_ok.1 h
  refine ha.shrink ?_
  have h1 : (a.tmod b).natAbs ≤ a.natAbs := by rw [Int.natAbs_tmod]; exact Nat.mod_le _ _
  by_cases h0 : 0 ≤ a
  · left
    have := Int.tmod_nonneg b h0
    omega
  · right
    have : 0 ≤ (-a).tmod b := Int.tmod_nonneg b (by omega)
    rw [Int.neg_tmod] at this
    omega

theorem Safe.arith_inRange {op : ArithOp} {a : Args} {res : Raw} {w : Bool} (ha : a.InRange T)
    (h : Safe.arith T op a = .ok res w) : res.InRange T := by
  cases a with
  | ff l r =>
    cases op
    · simp only [Safe.arith, Safe.plusFF, bind_eq_ok, pure_eq_ok] at h
      obtain ⟨_, _, _, h1, ⟨_, _, _, -, ⟨_, _, _, -, ⟨_, _, _, -, ⟨_, _, _, -, ⟨_, _, _, h2,
        ⟨rfl, -⟩, -⟩, -⟩, -⟩, -⟩, -⟩, -⟩ := h
      exact ⟨add_inRange h2, lcm_inRange h1⟩
    · simp only [Safe.arith, Safe.minusFF, bind_eq_ok, pure_eq_ok] at h
      obtain ⟨_, _, _, h1, ⟨_, _, _, -, ⟨_, _, _, -, ⟨_, _, _, -, ⟨_, _, _, -, ⟨_, _, _, h2,
        ⟨rfl, -⟩, -⟩, -⟩, -⟩, -⟩, -⟩, -⟩ := h
      exact ⟨sub_inRange h2, lcm_inRange h1⟩
    · simp only [Safe.arith, Safe.multipliesFF, bind_eq_ok, pure_eq_ok] at h
      obtain ⟨_, _, _, h1, ⟨_, _, _, h2, ⟨rfl, -⟩, -⟩, -⟩ := h
      exact ⟨mul_inRange h1, mul_inRange h2⟩
    · simp only [Safe.arith, Safe.dividesFF, bind_eq_ok, pure_eq_ok] at h
      obtain ⟨_, _, _, h1, ⟨_, _, _, h2, ⟨rfl, -⟩, -⟩, -⟩ := h
      exact ⟨mul_inRange h1, mul_inRange h2⟩
    · simp only [Safe.arith, Safe.modulusFF, bind_eq_ok, pure_eq_ok] at h
      obtain ⟨_, _, _, h1, ⟨_, _, _, -, ⟨_, _, _, h3, ⟨_, _, _, -, ⟨_, _, _, -, ⟨_, _, _, h2,
        ⟨rfl, -⟩, -⟩, -⟩, -⟩, -⟩, -⟩, -⟩ := h
      exact ⟨mod_inRange (mul_inRange h3) h2, lcm_inRange h1⟩
  | fr l r =>
    cases op
    · simp only [Safe.arith, Safe.plusFR, bind_eq_ok, pure_eq_ok] at h
      obtain ⟨_, _, _, -, ⟨_, _, _, h2, ⟨rfl, -⟩, -⟩, -⟩ := h
      exact ⟨add_inRange h2, ha.1.2⟩
    · simp only [Safe.arith, Safe.minusFR, bind_eq_ok, pure_eq_ok] at h
      obtain ⟨_, _, _, -, ⟨_, _, _, h2, ⟨rfl, -⟩, -⟩, -⟩ := h
      exact ⟨sub_inRange h2, ha.1.2⟩
    · simp only [Safe.arith, Safe.multipliesFR, bind_eq_ok, pure_eq_ok] at h
      obtain ⟨_, _, _, h2, ⟨rfl, -⟩, -⟩ := h
      exact ⟨mul_inRange h2, ha.1.2⟩
    · simp only [Safe.arith, Safe.dividesFR, bind_eq_ok, pure_eq_ok] at h
      obtain ⟨_, _, _, h2, ⟨rfl, -⟩, -⟩ := h
      exact ⟨ha.1.1, mul_inRange h2⟩
    · simp only [Safe.arith, Safe.modulusFR, bind_eq_ok, pure_eq_ok] at h
      obtain ⟨_, _, _, -, ⟨_, _, _, h2, ⟨rfl, -⟩, -⟩, -⟩ := h
      exact ⟨mod_inRange ha.1.1 h2, ha.1.2⟩
  | rf l r =>
    cases op
    · simp only [Safe.arith, Safe.plusRF, Safe.plusFR, bind_eq_ok, pure_eq_ok] at h
      obtain ⟨_, _, _, -, ⟨_, _, _, h2, ⟨rfl, -⟩, -⟩, -⟩ := h
      exact ⟨add_inRange h2, ha.2.2⟩
    · simp only [Safe.arith, Safe.minusRF, bind_eq_ok, pure_eq_ok] at h
      obtain ⟨_, _, _, -, ⟨_, _, _, h2, ⟨rfl, -⟩, -⟩, -⟩ := h
      exact ⟨sub_inRange h2, ha.2.2⟩
    · simp only [Safe.arith, Safe.multipliesRF, Safe.multipliesFR, bind_eq_ok, pure_eq_ok] at h
      obtain ⟨_, _, _, h2, ⟨rfl, -⟩, -⟩ := h
      exact ⟨mul_inRange h2, ha.2.2⟩
    · simp only [Safe.arith, Safe.dividesRF, bind_eq_ok, pure_eq_ok] at h
      obtain ⟨_, _, _, h2, ⟨rfl, -⟩, -⟩ := h
      exact ⟨mul_inRange h2, ha.2.1⟩
    · simp only [Safe.arith, Safe.modulusRF, bind_eq_ok, pure_eq_ok] at h
      obtain ⟨_, _, _, h3, ⟨_, _, _, h2, ⟨rfl, -⟩, -⟩, -⟩ := h
      exact ⟨mod_inRange (mul_inRange h3) h2, ha.2.2⟩

theorem Fast.arith_inRange {op : ArithOp} {a : Args} {res : Raw} {w : Bool} (ha : a.InRange T)
    (h : Fast.arith T op a = .ok res w) : res.InRange T := by
  cases a with
  | ff l r =>
    cases op
    · simp only [Fast.arith, Fast.plusFF, bind_eq_ok, pure_eq_ok] at h
      obtain ⟨_, _, _, -, ⟨_, _, _, -, ⟨_, _, _, h1, ⟨_, _, _, h2, ⟨rfl, -⟩, -⟩, -⟩, -⟩, -⟩ := h
      exact ⟨add_inRange h1, mul_inRange h2⟩
    · simp only [Fast.arith, Fast.minusFF, bind_eq_ok, pure_eq_ok] at h
      obtain ⟨_, _, _, -, ⟨_, _, _, -, ⟨_, _, _, h1, ⟨_, _, _, h2, ⟨rfl, -⟩, -⟩, -⟩, -⟩, -⟩ := h
      exact ⟨sub_inRange h1, mul_inRange h2⟩
    · simp only [Fast.arith, Fast.multipliesFF, bind_eq_ok, pure_eq_ok] at h
      obtain ⟨_, _, _, h1, ⟨_, _, _, h2, ⟨rfl, -⟩, -⟩, -⟩ := h
      exact ⟨mul_inRange h1, mul_inRange h2⟩
    · simp only [Fast.arith, Fast.dividesFF, bind_eq_ok, pure_eq_ok] at h
      obtain ⟨_, _, _, h1, ⟨_, _, _, h2, ⟨rfl, -⟩, -⟩, -⟩ := h
      exact ⟨mul_inRange h1, mul_inRange h2⟩
    · simp only [Fast.arith, Fast.modulusFF, bind_eq_ok, pure_eq_ok] at h
      obtain ⟨_, _, _, h3, ⟨_, _, _, -, ⟨_, _, _, h1, ⟨_, _, _, h2, ⟨rfl, -⟩, -⟩, -⟩, -⟩, -⟩ := h
      exact ⟨mod_inRange (mul_inRange h3) h1, mul_inRange h2⟩
  | fr l r =>
    cases op
    · simp only [Fast.arith, Fast.plusFR, bind_eq_ok, pure_eq_ok] at h
      obtain ⟨_, _, _, -, ⟨_, _, _, h2, ⟨rfl, -⟩, -⟩, -⟩ := h
      exact ⟨add_inRange h2, ha.1.2⟩
    · simp only [Fast.arith, Fast.minusFR, bind_eq_ok, pure_eq_ok] at h
      obtain ⟨_, _, _, -, ⟨_, _, _, h2, ⟨rfl, -⟩, -⟩, -⟩ := h
      exact ⟨sub_inRange h2, ha.1.2⟩
    · simp only [Fast.arith, Fast.multipliesFR, bind_eq_ok, pure_eq_ok] at h
      obtain ⟨_, _, _, h2, ⟨rfl, -⟩, -⟩ := h
      exact ⟨mul_inRange h2, ha.1.2⟩
    · simp only [Fast.arith, Fast.dividesFR, bind_eq_ok, pure_eq_ok] at h
      obtain ⟨_, _, _, h2, ⟨rfl, -⟩, -⟩ := h
      exact ⟨ha.1.1, mul_inRange h2⟩
    · simp only [Fast.arith, Fast.modulusFR, bind_eq_ok, pure_eq_ok] at h
      obtain ⟨_, _, _, -, ⟨_, _, _, h2, ⟨rfl, -⟩, -⟩, -⟩ := h
      exact ⟨mod_inRange ha.1.1 h2, ha.1.2⟩
  | rf l r =>
    cases op
    · simp only [Fast.arith, Fast.plusRF, Fast.plusFR, bind_eq_ok, pure_eq_ok] at h
      obtain ⟨_, _, _, -, ⟨_, _, _, h2, ⟨rfl, -⟩, -⟩, -⟩ := h
      exact ⟨add_inRange h2, ha.2.2⟩
    · simp only [Fast.arith, Fast.minusRF, bind_eq_ok, pure_eq_ok] at h
      obtain ⟨_, _, _, -, ⟨_, _, _, h2, ⟨rfl, -⟩, -⟩, -⟩ := h
      exact ⟨sub_inRange h2, ha.2.2⟩
    · simp only [Fast.arith, Fast.multipliesRF, Fast.multipliesFR, bind_eq_ok, pure_eq_ok] at h
      obtain ⟨_, _, _, h2, ⟨rfl, -⟩, -⟩ := h
      exact ⟨mul_inRange h2, ha.2.2⟩
    · simp only [Fast.arith, Fast.dividesRF, bind_eq_ok, pure_eq_ok] at h
      obtain ⟨_, _, _, h2, ⟨rfl, -⟩, -⟩ := h
      exact ⟨mul_inRange h2, ha.2.1⟩
    · simp only [Fast.arith, Fast.modulusRF, bind_eq_ok, pure_eq_ok] at h
      obtain ⟨_, _, _, h3, ⟨_, _, _, h2, ⟨rfl, -⟩, -⟩, -⟩ := h
      exact ⟨mod_inRange (mul_inRange h3) h2, ha.2.2⟩

theorem Args.reduce_inRange {mode : ReduceMode} {a a' : Args} {w : Bool} (ha : a.InRange T)
    (h : a.reduce T mode = .ok a' w) : a'.InRange T := by
  cases a with
  | ff l r =>
    simp only [Args.reduce, bind_eq_ok, pure_eq_ok] at h
    obtain ⟨_, _, _, h1, ⟨_, _, _, h2, ⟨rfl, -⟩, -⟩, -⟩ := h
    exact ⟨Raw.reduce_inRange h1, Raw.reduce_inRange h2⟩
  | fr l r =>
    simp only [Args.reduce, bind_eq_ok, pure_eq_ok] at h
    obtain ⟨_, _, _, h1, ⟨rfl, -⟩, -⟩ := h
    exact ⟨Raw.reduce_inRange h1, ha.2⟩
  | rf l r =>
    simp only [Args.reduce, bind_eq_ok, pure_eq_ok] at h
    obtain ⟨_, _, _, h1, ⟨rfl, -⟩, -⟩ := h
    exact ⟨ha.1, Raw.reduce_inRange h1⟩

theorem Ops.arith_inRange {o : Ops} {op : ArithOp} {a : Args} {res : Raw} {w : Bool}
    (ha : a.InRange T) (h : o.arith T op a = .ok res w) : res.InRange T := by
  induction o generalizing a res w with
  | safe => exact Safe.arith_inRange ha h
  | fast => exact Fast.arith_inRange ha h
  | reducedInput o mode ih =>
    simp only [Ops.arith, bind_eq_ok] at h
    obtain ⟨a', _, _, ha', h, -⟩ := h
    exact ih (Args.reduce_inRange ha ha') h
  | reducedOutput o mode ih =>
    simp only [Ops.arith, bind_eq_ok] at h
    obtain ⟨r, _, _, hr, h, -⟩ := h
    exact Raw.reduce_inRange h

theorem Ops.negate_inRange {o : Ops} {v res : Raw} {w : Bool} (hv : v.InRange T)
    (h : o.negate T v = .ok res w) : res.InRange T := by
  induction o generalizing v res w with
  | safe =>
    simp only [Ops.negate, Safe.negate, bind_eq_ok, pure_eq_ok] at h
    obtain ⟨_, _, _, h1, ⟨rfl, -⟩, -⟩ := h
    exact ⟨neg_inRange h1, hv.2⟩
  | fast =>
    simp only [Ops.negate, Fast.negate, bind_eq_ok, pure_eq_ok] at h
    obtain ⟨_, _, _, h1, ⟨rfl, -⟩, -⟩ := h
    exact ⟨neg_inRange h1, hv.2⟩
  | reducedInput o mode ih =>
    simp only [Ops.negate, bind_eq_ok] at h
    obtain ⟨a', _, _, ha', h, -⟩ := h
    exact ih (Raw.reduce_inRange ha') h
  | reducedOutput o mode ih =>
    simp only [Ops.negate, bind_eq_ok] at h
    obtain ⟨r, _, _, hr, h, -⟩ := h
    exact Raw.reduce_inRange h

/-- Discharges `NoWrap` goals for straight-line code over a signed type. -/
macro "nowrap" hs:ident : tactic => `(tactic|
  repeat' first
    | exact NoWrap.pure _
    | exact arith_noWrap $hs _
    | exact div_noWrap _ _
    | exact mod_noWrap _ _
    | exact lcm_noWrap _ _
    | exact gcd_noWrap _ _
    | exact Raw.reduce_noWrap $hs _
    | (refine NoWrap.bind ?_ fun _ => ?_)
    | split)

theorem Safe.arith_noWrap (hs : T.signed = true) (op : ArithOp) (a : Args) :
    (Safe.arith T op a).NoWrap := by
  cases op <;> cases a <;>
    simp only [Safe.arith, Safe.plusFF, Safe.plusFR, Safe.plusRF, Safe.minusFF, Safe.minusFR,
      Safe.minusRF, Safe.multipliesFF, Safe.multipliesFR, Safe.multipliesRF, Safe.dividesFF,
      Safe.dividesFR, Safe.dividesRF, Safe.modulusFF, Safe.modulusFR, Safe.modulusRF] <;>
    nowrap hs

theorem Fast.arith_noWrap (hs : T.signed = true) (op : ArithOp) (a : Args) :
    (Fast.arith T op a).NoWrap := by
  cases op <;> cases a <;>
    simp only [Fast.arith, Fast.plusFF, Fast.plusFR, Fast.plusRF, Fast.minusFF, Fast.minusFR,
      Fast.minusRF, Fast.multipliesFF, Fast.multipliesFR, Fast.multipliesRF, Fast.dividesFF,
      Fast.dividesFR, Fast.dividesRF, Fast.modulusFF, Fast.modulusFR, Fast.modulusRF] <;>
    nowrap hs

theorem Safe.cmp_noWrap (hs : T.signed = true) (op : CmpOp) (a : Args) :
    (Safe.cmp T op a).NoWrap := by
  cases op <;> cases a <;>
    simp only [Safe.cmp, Safe.equalToFF, Safe.equalToFR, Safe.equalToRF, Safe.notEqualToFF,
      Safe.notEqualToFR, Safe.notEqualToRF, Safe.lessFF, Safe.lessFR, Safe.lessRF,
      Safe.lessEqualFF, Safe.lessEqualFR, Safe.lessEqualRF, Safe.greaterFF, Safe.greaterFR,
      Safe.greaterRF, Safe.greaterEqualFF, Safe.greaterEqualFR, Safe.greaterEqualRF] <;>
    nowrap hs

theorem Fast.cmp_noWrap (hs : T.signed = true) (op : CmpOp) (a : Args) :
    (Fast.cmp T op a).NoWrap := by
  cases op <;> cases a <;>
    simp only [Fast.cmp, Fast.equalToFF, Fast.equalToFR, Fast.equalToRF, Fast.notEqualToFF,
      Fast.notEqualToFR, Fast.notEqualToRF, Fast.lessFF, Fast.lessFR, Fast.lessRF,
      Fast.lessEqualFF, Fast.lessEqualFR, Fast.lessEqualRF, Fast.greaterFF, Fast.greaterFR,
      Fast.greaterRF, Fast.greaterEqualFF, Fast.greaterEqualFR, Fast.greaterEqualRF] <;>
    nowrap hs

theorem Args.reduce_noWrap (hs : T.signed = true) (mode : ReduceMode) (a : Args) :
    (a.reduce T mode).NoWrap := by
  cases a <;> simp only [Args.reduce] <;> nowrap hs

theorem Ops.arith_noWrap (hs : T.signed = true) (o : Ops) (op : ArithOp) (a : Args) :
    (o.arith T op a).NoWrap := by
  induction o generalizing a with
  | safe => exact Safe.arith_noWrap hs op a
  | fast => exact Fast.arith_noWrap hs op a
  | reducedInput o mode ih => exact (Args.reduce_noWrap hs mode a).bind fun _ => ih _
  | reducedOutput o mode ih => exact (ih a).bind fun _ => Raw.reduce_noWrap hs mode

theorem Ops.cmp_noWrap (hs : T.signed = true) (o : Ops) (op : CmpOp) (a : Args) :
    (o.cmp T op a).NoWrap := by
  induction o generalizing a with
  | safe => exact Safe.cmp_noWrap hs op a
  | fast => exact Fast.cmp_noWrap hs op a
  | reducedInput o mode ih => exact (Args.reduce_noWrap hs mode a).bind fun _ => ih _
  | reducedOutput o mode ih => exact ih a

theorem Ops.negate_noWrap (hs : T.signed = true) (o : Ops) (v : Raw) :
    (o.negate T v).NoWrap := by
  induction o generalizing v with
  | safe => simp only [Ops.negate, Safe.negate]; nowrap hs
  | fast => simp only [Ops.negate, Fast.negate]; nowrap hs
  | reducedInput o mode ih => exact (Raw.reduce_noWrap hs _).bind fun _ => ih _
  | reducedOutput o mode ih => exact (ih v).bind fun _ => Raw.reduce_noWrap hs mode

end Ieme
