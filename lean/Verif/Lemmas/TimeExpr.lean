import Verif.Spec.TimeExpr
import Verif.Lemmas.TypedProgram
import Verif.Props.Duration
import Verif.Lemmas.Widen

/-!
# Lemmas on expressions over durations and time points
-/

namespace Ieme

open Res IntTy Chrono

theorem Safe.cmp_noThrow {T : IntTy} (op : CmpOp) (a : Args) : (Safe.cmp T op a).NoThrow := by
  cases op <;> cases a <;>
    simp only [Safe.cmp, Safe.equalToFF, Safe.equalToFR, Safe.equalToRF, Safe.notEqualToFF,
      Safe.notEqualToFR, Safe.notEqualToRF, Safe.lessFF, Safe.lessFR, Safe.lessRF,
      Safe.lessEqualFF, Safe.lessEqualFR, Safe.lessEqualRF, Safe.greaterFF, Safe.greaterFR,
      Safe.greaterRF, Safe.greaterEqualFF, Safe.greaterEqualFR, Safe.greaterEqualRF, IntTy.mul] <;>
    nothrow

theorem Fast.cmp_noThrow {T : IntTy} (op : CmpOp) (a : Args) : (Fast.cmp T op a).NoThrow := by
  cases op <;> cases a <;>
    simp only [Fast.cmp, Fast.equalToFF, Fast.equalToFR, Fast.equalToRF, Fast.notEqualToFF,
      Fast.notEqualToFR, Fast.notEqualToRF, Fast.lessFF, Fast.lessFR, Fast.lessRF,
      Fast.lessEqualFF, Fast.lessEqualFR, Fast.lessEqualRF, Fast.greaterFF, Fast.greaterFR,
      Fast.greaterRF, Fast.greaterEqualFF, Fast.greaterEqualFR, Fast.greaterEqualRF, IntTy.mul] <;>
    nothrow

theorem Ops.cmp_noThrow {T : IntTy} {o : Ops} (op : CmpOp) (a : Args) :
    (o.cmp T op a).NoThrow := by
  induction o generalizing a with
  | safe => exact Safe.cmp_noThrow op a
  | fast => exact Fast.cmp_noThrow op a
  | reducedInput o m ih => exact (Args.reduce_noThrow _ _).bind fun v => ih v
  | reducedOutput o m ih => exact ih a

theorem Fraction.cmp_self_noThrow {T : IntTy} {o : Ops} (op : CmpOp) (a : Args) :
    (Fraction.cmp T T o op a).NoThrow := by
  rw [Fraction.cmp_self]; exact Ops.cmp_noThrow op a

namespace Chrono

variable {T : IntTy} {o : Ops} {p q c : Period} {l r : Count} {f : Raw} {x y z : ℚ}
  {op : ArithOp} {s t u : Shape}

theorem commonTy_eq_some : commonTy p q = some c ↔ commonPeriod p q = some c ∧
    FitsParts i64 (conversionFactor p c) ∧ FitsParts i64 (conversionFactor q c) := by
  unfold commonTy
  cases h : commonPeriod p q with
  | none => simp
  | some d =>
    have e : ∀ {a b : Period}, (ratioDivide a b).isNone = false ↔
        FitsParts i64 (conversionFactor a b) := by
      intro a b
      rw [ratioDivide_eq]
      split <;> simp_all [FitsParts]
    simp only [Option.ite_none_left_eq_some, not_or, Bool.not_eq_true, Option.some.injEq, e]
    constructor
    · rintro ⟨h, rfl⟩; exact ⟨rfl, h⟩
    · rintro ⟨rfl, h⟩; exact ⟨h, rfl⟩

theorem ratioDivide_isSome : (ratioDivide p q).isSome ↔ FitsParts i64 (conversionFactor p q) := by
  rw [ratioDivide_eq]
  split <;> simp_all [FitsParts]

theorem unit_pos (s : Shape) : 0 < s.unit := by
  cases s
  · exact one_pos
  · exact Period.seconds_pos _
  · exact Period.seconds_pos _

theorem op_value_exact (h : op.Exact x y f) (hz : op.value x y = some z) : Denotes f z := by
  cases op <;> simp only [ArithOp.value, Option.some.injEq, Option.ite_none_left_eq_some] at hz
  · exact hz ▸ h
  · exact hz ▸ h
  · exact hz ▸ h
  · exact hz.2 ▸ h.1 hz.1
  · exact hz.2 ▸ h.2

theorem convert_same (h : convert T o p p l ⇓ f) (hl : l.Is x) : Denotes f x := by
  have := C67_duration_cast_exact hl h
  rwa [mul_div_cancel_right₀ _ p.seconds_pos.ne'] at this

theorem scaleCount_exact {k : Count} (h : scaleCount T o op p l k ⇓ f) (hl : l.Is x)
    (hk : k.Is y) : op.Exact x y f := by
  obtain ⟨g, h1, h2⟩ := bind_eq_clean.1 h
  have dg := convert_same h1 hl
  cases k with
  | frac k =>
    simp only [scaleFrac, Fraction.arith_self] at h2
    exact Ops.arith_exact (a := .ff g k) ⟨dg, hk⟩ h2
  | int n =>
    simp only [scaleInt, Fraction.arith_self] at h2
    have := Ops.arith_exact (a := .fr g n) (y := (n : ℚ)) ⟨dg, rfl⟩ h2
    rwa [show (n : ℚ) = y from hk] at this

/-- What the operators return. -/
theorem applyOp_exact {a b : Bool} (hs : Shape.result op s t = some u) (hl : Stands s l x)
    (hr : Stands t r y) (h : applyOp T o op s t l r ⇓ f)
    (hz : op.value x (if op = .modulus then y * modUnit (some ⟨a, s⟩) (some ⟨b, t⟩) else y) =
      some z) : Stands u (.frac f) z := by
  have arithCase : ∀ {p q c : Period}, commonTy p q = some c → l.Is (x / p.seconds) →
      r.Is (y / q.seconds) → arith T o op p q l r ⇓ f →
      (op = .plus → Denotes f ((x + y) / c.seconds)) ∧
      (op = .minus → Denotes f ((x - y) / c.seconds)) ∧
      (op = .modulus → Denotes f ((x - y * ratTrunc (x / y)) / c.seconds)) ∧
      (op = .divides → y ≠ 0 → Denotes f (x / y)) := by
    intro p q c hc hl hr h
    obtain ⟨k1, k2, k3, k4⟩ := C87_arith_exact (T := T) (o := o) (f := f)
      (commonTy_eq_some.1 hc).1 (show Lasts p l x from hl) (show Lasts q r y from hr)
    refine ⟨?_, ?_, ?_, ?_⟩ <;> rintro rfl
    · exact k1 h
    · exact k2 h
    · exact (k3 h).2
    · exact (k4 h).1
  cases s with
  | num =>
    cases t with
    | num =>
      obtain rfl : Shape.num = u := by simpa only [Shape.result, Option.some.injEq] using hs
      simp only [Stands, Shape.unit, div_one] at hl hr ⊢
      simp only [modUnit, mul_one, ite_self] at hz
      cases l <;> cases r <;> simp only [applyOp, Fraction.arith_self, reduceCtorEq] at h
      · rename_i n g
        have := Ops.arith_exact (a := .rf n g) (x := (n : ℚ)) (y := y) ⟨rfl, hr⟩ h
        rw [show (n : ℚ) = x from hl] at this
        exact op_value_exact this hz
      · rename_i g n
        have := Ops.arith_exact (a := .fr g n) (x := x) (y := (n : ℚ)) ⟨hl, rfl⟩ h
        rw [show (n : ℚ) = y from hr] at this
        exact op_value_exact this hz
      · exact op_value_exact (Ops.arith_exact (a := .ff _ _) ⟨hl, hr⟩ h) hz
    | dur q =>
      cases op <;> simp only [Shape.result, reduceCtorEq, Option.some.injEq] at hs
      subst hs
      simp only [reduceCtorEq, if_false, ArithOp.value, Option.some.injEq] at hz
      subst hz
      simp only [Stands, Shape.unit, div_one] at hl hr ⊢
      have := scaleCount_exact h hr hl
      show Denotes f (x * y / q.seconds)
      rw [mul_comm, mul_div_right_comm]
      exact this
    | tp q => cases op <;> simp only [Shape.result, reduceCtorEq] at hs
  | dur p =>
    have p0 := p.seconds_pos.ne'
    cases t with
    | num =>
      simp only [Stands, Shape.unit, div_one] at hl hr
      have k := scaleCount_exact h hl hr
      cases op <;> simp only [Shape.result, reduceCtorEq, Option.some.injEq] at hs <;> subst hs
      · simp only [reduceCtorEq, if_false, ArithOp.value, Option.some.injEq] at hz
        subst hz
        show Denotes f (x * y / p.seconds)
        rw [mul_div_right_comm]
        exact k
      · simp only [reduceCtorEq, if_false, ArithOp.value, Option.ite_none_left_eq_some,
          Option.some.injEq] at hz
        obtain ⟨y0, rfl⟩ := hz
        show Denotes f (x / y / p.seconds)
        rw [div_right_comm]
        exact k.1 y0
      · simp only [if_true, modUnit, ArithOp.value, Option.ite_none_left_eq_some,
          Option.some.injEq] at hz
        obtain ⟨-, rfl⟩ := hz
        show Denotes f (_ / p.seconds)
        have e : (x - y * p.seconds * ratTrunc (x / (y * p.seconds))) / p.seconds =
            x / p.seconds - y * ratTrunc (x / p.seconds / y) := by
          rw [div_div, mul_comm p.seconds y]
          field_simp
        rw [e]
        exact k.2
    | dur q =>
      have key := fun {c : Period} (hc : commonTy p q = some c) => arithCase hc hl hr h
      cases op <;> simp only [Shape.result, reduceCtorEq, Option.map_eq_some_iff] at hs <;>
        obtain ⟨c, hc, rfl⟩ := hs <;>
        simp only [reduceCtorEq, if_false, if_true, modUnit, mul_one, ArithOp.value,
          Option.ite_none_left_eq_some, Option.some.injEq] at hz
      · exact hz ▸ (key hc).1 rfl
      · exact hz ▸ (key hc).2.1 rfl
      · show Denotes f (z / 1)
        rw [div_one]
        exact hz.2 ▸ (key hc).2.2.2 rfl hz.1
      · exact hz.2 ▸ (key hc).2.2.1 rfl
    | tp q =>
      cases op <;> simp only [Shape.result, reduceCtorEq, Option.map_eq_some_iff] at hs
      obtain ⟨c, hc, rfl⟩ := hs
      simp only [reduceCtorEq, if_false, ArithOp.value, Option.some.injEq] at hz
      exact hz ▸ (arithCase hc hl hr h).1 rfl
  | tp p =>
    cases t with
    | num => cases op <;> simp only [Shape.result, reduceCtorEq] at hs
    | dur q =>
      cases op <;> simp only [Shape.result, reduceCtorEq, Option.map_eq_some_iff] at hs <;>
        obtain ⟨c, hc, rfl⟩ := hs <;>
        simp only [reduceCtorEq, if_false, ArithOp.value, Option.some.injEq] at hz
      · exact hz ▸ (arithCase hc hl hr h).1 rfl
      · exact hz ▸ (arithCase hc hl hr h).2.1 rfl
    | tp q =>
      cases op <;> simp only [Shape.result, reduceCtorEq, Option.map_eq_some_iff] at hs
      obtain ⟨c, hc, rfl⟩ := hs
      simp only [reduceCtorEq, if_false, ArithOp.value, Option.some.injEq] at hz
      exact hz ▸ (arithCase hc hl hr h).2.1 rfl

theorem arith_fits_noThrow (hc : commonTy p q = some c) : (arith T o op p q l r).NoThrow := by
  obtain ⟨h1, h2, h3⟩ := commonTy_eq_some.1 hc
  unfold Chrono.arith
  rw [common_eq_of_fits h1 h2 h3]
  refine NoThrow.bind ?_ fun _ => Fraction.arith_noThrow _ _ _ _ _
  exact NoThrow.bind (convert_noThrow h2) fun _ =>
    NoThrow.bind (convert_noThrow h3) fun _ => NoThrow.pure _

theorem commonTy_comm : commonTy p q = some c ↔ commonTy q p = some c := by
  rw [commonTy_eq_some, commonTy_eq_some, commonPeriod_comm p q,
    and_comm (a := FitsParts i64 (conversionFactor p c))]

theorem cmp_fits_noThrow {op : CmpOp} (hc : commonTy p q = some c) :
    (cmp T o op p q l r).NoThrow := by
  have key : ∀ {p q : Period} {l r : Count} (op : CmpOp), commonTy p q = some c →
      (Chrono.common T o p q l r >>= fun z => match z with
        | (x, y) => Fraction.cmp T T o op (.ff x y)).NoThrow := by
    intro p q l r op hc
    obtain ⟨h1, h2, h3⟩ := commonTy_eq_some.1 hc
    rw [common_eq_of_fits h1 h2 h3]
    refine NoThrow.bind ?_ fun _ => Fraction.cmp_self_noThrow _ _
    exact NoThrow.bind (convert_noThrow h2) fun _ =>
      NoThrow.bind (convert_noThrow h3) fun _ => NoThrow.pure _
  have k1 := fun op => key (l := l) (r := r) op hc
  have k2 := fun op => key (l := r) (r := l) op (commonTy_comm.1 hc)
  cases op
  · exact k1 _
  · exact (k1 .equalTo).bind fun _ => NoThrow.pure _
  · exact k1 _
  · exact (k2 .less).bind fun _ => NoThrow.pure _
  · exact k2 _
  · exact (k1 .less).bind fun _ => NoThrow.pure _

theorem same_fits : FitsParts i64 (conversionFactor p p) := by
  rw [conversionFactor, div_self p.seconds_pos.ne']
  decide

theorem scaleCount_noThrow {k : Count} : (scaleCount T o op p l k).NoThrow := by
  refine NoThrow.bind (convert_noThrow same_fits) fun x => ?_
  cases k
  · exact Fraction.arith_noThrow _ _ _ _ _
  · exact Fraction.arith_noThrow _ _ _ _ _

theorem neg_noThrow : (Chrono.neg T o f).NoThrow := by
  exact Overload.negate_noThrow f

/-- Operators that exist do not fail to compile. -/
theorem applyOp_noThrow {a b : TimeTy} {τ : TimeTy} (h : TimeTy.result op a b = some τ)
    (hl : a.Has l) (hr : b.Has r) : (applyOp T o op a.shape b.shape l r).NoThrow := by
  obtain ⟨a, s⟩ := a
  obtain ⟨b, t⟩ := b
  simp only [TimeTy.result, Option.ite_none_right_eq_some, Option.map_eq_some_iff] at h
  obtain ⟨hf, u, hu, -⟩ := h
  have none_case : ∀ {g : Period → Shape} {p q : Period}, (commonTy p q).map g = some u →
      (arith T o op p q l r).NoThrow := by
    intro g p q h
    obtain ⟨c, hc, -⟩ := Option.map_eq_some_iff.1 h
    exact arith_fits_noThrow hc
  cases s <;> cases t
  · cases l <;> cases r <;> simp only [TimeTy.Has] at hl hr <;>
      first
      | exact Fraction.arith_noThrow _ _ _ _ _
      | (simp only [hl, hr] at hf; simp at hf)
  · exact scaleCount_noThrow
  · cases op <;> simp only [Shape.result, reduceCtorEq] at hu
  · exact scaleCount_noThrow
  · cases op <;> simp only [Shape.result, reduceCtorEq] at hu <;> exact none_case hu
  · cases op <;> simp only [Shape.result, reduceCtorEq] at hu; exact none_case hu
  · cases op <;> simp only [Shape.result, reduceCtorEq] at hu
  · cases op <;> simp only [Shape.result, reduceCtorEq] at hu <;> exact none_case hu
  · cases op <;> simp only [Shape.result, reduceCtorEq] at hu <;> exact none_case hu

theorem noThrow_bind {α β : Type} {x : Res α} {f : α → Res β} (h : x.NoThrow)
    (h' : ∀ a w, x = .ok a w → (f a).NoThrow) : (x >>= f).NoThrow := by
  cases x with
  | fault k => intro k' he; rw [Res.fault_bind] at he; cases he; exact h k rfl
  | ok a w =>
    have := h' a w rfl
    intro k' he
    rw [Res.bind_def, Res.bind] at he
    cases hfa : f a with
    | fault k => rw [hfa] at he this; cases he; exact this _ rfl
    | ok b w => rw [hfa] at he; cases he

theorem result_frac {a b τ : TimeTy} (h : TimeTy.result op a b = some τ) :
    τ.frac = true ∧ Shape.result op a.shape b.shape = some τ.shape := by
  simp only [TimeTy.result, Option.ite_none_right_eq_some, Option.map_eq_some_iff] at h
  obtain ⟨-, u, hu, rfl⟩ := h
  exact ⟨rfl, hu⟩

theorem period_ext (h1 : p.num = q.num) (h2 : p.den = q.den) : p = q := by
  cases p; cases q; simp_all

theorem applyOp_sim {T' : IntTy} (h : T.Within T') (op : ArithOp) (s t : Shape) (l r : Count) :
    (applyOp T o op s t l r).Sim (applyOp T' o op s t l r) := by
  have sc : ∀ (p : Period) (d k : Count),
      (scaleCount T o op p d k).Sim (scaleCount T' o op p d k) := by
    intro p d k
    refine .bind (convert_sim h o p p d) fun x => ?_
    cases k
    · exact Fraction.arith_self_sim h o op _
    · exact Fraction.arith_self_sim h o op _
  cases s <;> cases t
  · cases l <;> cases r <;> first | exact Fraction.arith_self_sim h o op _ | exact .refl _
  · exact sc _ _ _
  · exact .refl _
  · exact sc _ _ _
  · exact arith_sim h o op _ _ _ _
  · exact arith_sim h o op _ _ _ _
  · exact .refl _
  · exact arith_sim h o op _ _ _ _
  · exact arith_sim h o op _ _ _ _

theorem run_sim {T' : IntTy} (h : T.Within T') {Γ : ℕ → TimeTy} {σ : ℕ → Count} (e : TimeExpr) :
    (e.run T o Γ σ).Sim (e.run T' o Γ σ) := by
  induction e with
  | var x => exact .refl _
  | neg e ih =>
    refine .bind ih fun v => ?_
    cases v
    · exact .refl _
    · exact .bind (Ops.negate_sim h o _) fun _ => .refl _
  | bin op e1 e2 ih1 ih2 =>
    simp only [TimeExpr.run]
    split
    · exact .bind ih1 fun _ => .bind ih2 fun _ => .bind (applyOp_sim h _ _ _ _ _) fun _ => .refl _
    · exact .refl _
  | cast q e ih =>
    simp only [TimeExpr.run]
    split
    · exact .bind ih fun _ => .bind (convert_sim h _ _ _ _) fun _ => .refl _
    · exact .bind ih fun _ => .bind (convert_sim h _ _ _ _) fun _ => .refl _
    · exact .refl _

end Chrono
end Ieme
