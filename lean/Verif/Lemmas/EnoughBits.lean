import Verif.Lemmas.ProgramBounds
import Verif.Lemmas.Widen
import Verif.Props.Widen
import Verif.Props.MixedNumber
import Verif.Spec.EnoughBits

/-!
# Lemmas about results in wide types
-/

namespace Ieme

open Res IntTy

/-- Some signed type has a maximum of at least `K`, and so has every wider one. -/
theorem IntTy.exists_max_ge (K : ℤ) :
    ∃ T₀ : IntTy, T₀.signed = true ∧ K ≤ T₀.max ∧ ∀ T : IntTy, T.signed = true →
      T₀.bits ≤ T.bits → T₀.Within T ∧ K ≤ T.max := by
  have key : ∀ T : IntTy, T.signed = true → K.natAbs + 33 ≤ T.bits → K ≤ T.max := by
    intro T hs hb
    have h2 : K.natAbs + 1 ≤ 2 ^ (T.bits - 1) :=
      (Nat.lt_two_pow_self (n := K.natAbs)).trans_le (Nat.pow_le_pow_right (by decide) (by omega))
    simp only [IntTy.max, hs, if_true]
    omega
  refine ⟨⟨true, K.natAbs + 33, by omega⟩, rfl, key _ rfl le_rfl, fun T hs hb => ⟨?_, key T hs hb⟩⟩
  exact C100_within_iff.2 (.inl ⟨hs.symm, hb⟩)

/-- What finishes in all sufficiently large types, and keeps its result in wider types, settles. -/
theorem Settles.of_sim {α : Type} {f : IntTy → Res α} {P : α → Prop} (K : ℤ)
    (h : ∀ T : IntTy, T.signed = true → K ≤ T.max → ∃ v, f T ⇓ v ∧ P v)
    (hsim : ∀ T T' : IntTy, T.signed = true → T.Within T' → (f T).Sim (f T')) :
    ∃ v, Settles f v ∧ P v := by
  obtain ⟨T₀, hs, hK, hT⟩ := IntTy.exists_max_ge K
  obtain ⟨v, hv, hP⟩ := h T₀ hs hK
  exact ⟨v, ⟨T₀.bits, fun T hs' hb => hsim T₀ T hs (hT T hs' hb).1 v hv⟩, hP⟩

/-- The same when the result is known. -/
theorem Settles.of_max {α : Type} {f : IntTy → Res α} {v : α} (K : ℤ)
    (h : ∀ T : IntTy, T.signed = true → K ≤ T.max → f T ⇓ v) : Settles f v := by
  obtain ⟨T₀, hs, hK, hT⟩ := IntTy.exists_max_ge K
  exact ⟨T₀.bits, fun T hs' hb => h T hs' (hT T hs' hb).2⟩

/-- A settled result is the only one. -/
theorem Settles.unique {α : Type} {f : IntTy → Res α} {v w : α} (h : Settles f v)
    (h' : Settles f w) : v = w := by
  obtain ⟨N, h⟩ := h
  obtain ⟨M, h'⟩ := h'
  have e := h ⟨true, max (max N M) 32, le_max_right _ _⟩ rfl
    ((le_max_left N M).trans (le_max_left _ _))
  rw [h' ⟨true, max (max N M) 32, le_max_right _ _⟩ rfl
    ((le_max_right N M).trans (le_max_left _ _))] at e
  exact (Res.ok.injEq .. ▸ e).1.symm

theorem Bound.exists_le (b : Bound) : ∃ K₀ : ℤ, ∀ K ≥ K₀, b.Le K :=
  ⟨max b.num b.den, fun K h => ⟨by omega, by omega⟩⟩

theorem ArithOp.exists_bounded (op : ArithOp) (a b : Bound) : ∃ K₀ : ℤ, ∀ K ≥ K₀, op.Bounded a b K := by
  obtain ⟨K₀, h⟩ := (op.bound a b).exists_le
  refine ⟨max K₀ ((b.num * a.den : ℕ) : ℤ), fun K hK => ⟨h K (by omega), fun _ => by omega⟩⟩

theorem Expr.exists_bounded : ∀ e : Expr, ∃ K₀ : ℤ, ∀ K ≥ K₀, e.Bounded K
  | .lit f => f.bound.exists_le
  | .neg e => e.exists_bounded
  | .pos e => e.exists_bounded
  | .ff op e1 e2 => by
    obtain ⟨K1, h1⟩ := e1.exists_bounded
    obtain ⟨K2, h2⟩ := e2.exists_bounded
    obtain ⟨K3, h3⟩ := op.exists_bounded e1.bound e2.bound
    exact ⟨max K1 (max K2 K3), fun K h => ⟨h1 K (by omega), h2 K (by omega), h3 K (by omega)⟩⟩
  | .fr op e n => by
    obtain ⟨K1, h1⟩ := e.exists_bounded
    obtain ⟨K2, h2⟩ := (intBound n).exists_le
    obtain ⟨K3, h3⟩ := op.exists_bounded e.bound (intBound n)
    exact ⟨max K1 (max K2 K3), fun K h => ⟨h1 K (by omega), h2 K (by omega), h3 K (by omega)⟩⟩
  | .rf op n e => by
    obtain ⟨K1, h1⟩ := e.exists_bounded
    obtain ⟨K2, h2⟩ := (intBound n).exists_le
    obtain ⟨K3, h3⟩ := op.exists_bounded (intBound n) e.bound
    exact ⟨max K1 (max K2 K3), fun K h => ⟨h1 K (by omega), h2 K (by omega), h3 K (by omega)⟩⟩

theorem PExpr.exists_bounded (A : Bounds) : ∀ e : PExpr, ∃ K₀ : ℤ, ∀ K ≥ K₀, e.Bounded K A
  | .var x => (A x).exists_le
  | .lit f => f.bound.exists_le
  | .neg e => e.exists_bounded A
  | .pos e => e.exists_bounded A
  | .ff op e1 e2 => by
    obtain ⟨K1, h1⟩ := e1.exists_bounded A
    obtain ⟨K2, h2⟩ := e2.exists_bounded A
    obtain ⟨K3, h3⟩ := op.exists_bounded (e1.bound A) (e2.bound A)
    exact ⟨max K1 (max K2 K3), fun K h => ⟨h1 K (by omega), h2 K (by omega), h3 K (by omega)⟩⟩
  | .fr op e n => by
    obtain ⟨K1, h1⟩ := e.exists_bounded A
    obtain ⟨K2, h2⟩ := (intBound n).exists_le
    obtain ⟨K3, h3⟩ := op.exists_bounded (e.bound A) (intBound n)
    exact ⟨max K1 (max K2 K3), fun K h => ⟨h1 K (by omega), h2 K (by omega), h3 K (by omega)⟩⟩
  | .rf op n e => by
    obtain ⟨K1, h1⟩ := e.exists_bounded A
    obtain ⟨K2, h2⟩ := (intBound n).exists_le
    obtain ⟨K3, h3⟩ := op.exists_bounded (intBound n) (e.bound A)
    exact ⟨max K1 (max K2 K3), fun K h => ⟨h1 K (by omega), h2 K (by omega), h3 K (by omega)⟩⟩

theorem PExpr.exists_condBounded (A : Bounds) (e1 e2 : PExpr) :
    ∃ K₀ : ℤ, ∀ K ≥ K₀, e1.CondBounded K A e2 := by
  obtain ⟨K1, h1⟩ := e1.exists_bounded A
  obtain ⟨K2, h2⟩ := e2.exists_bounded A
  refine ⟨max (max K1 K2) (max (((e1.bound A).num * (e2.bound A).den : ℕ) : ℤ)
    (max (((e2.bound A).num * (e1.bound A).den : ℕ) : ℤ)
      (((e1.bound A).den * (e2.bound A).den : ℕ) : ℤ))), fun K h => ?_⟩
  exact ⟨h1 K (by omega), h2 K (by omega), by omega, by omega, by omega⟩

/-- For any number of steps the static check accepts every program if the limit is large enough. -/
theorem Cmd.exists_check : ∀ (n : ℕ) (c : Cmd) (A : Bounds),
    ∃ (K₀ : ℤ) (R : Outcome), ∀ K ≥ K₀, c.check K n A = some R
  | 0, _, _ => ⟨0, .unreached, fun _ _ => by simp [Cmd.check]⟩
  | n + 1, .skip, A => ⟨0, .within A, fun _ _ => by simp [Cmd.check]⟩
  | n + 1, .assign x e, A => by
    obtain ⟨K₀, h⟩ := e.exists_bounded A
    exact ⟨K₀, _, fun K hK => by rw [Cmd.check, if_pos (h K hK)]⟩
  | n + 1, .seq c d, A => by
    obtain ⟨K1, R1, h1⟩ := Cmd.exists_check n c A
    cases R1 with
    | unreached => exact ⟨K1, .unreached, fun K hK => by simp [Cmd.check, h1 K hK]⟩
    | within B =>
      obtain ⟨K2, R2, h2⟩ := Cmd.exists_check n d B
      exact ⟨max K1 K2, R2, fun K hK => by simp [Cmd.check, h1 K (by omega), h2 K (by omega)]⟩
  | n + 1, .ite op e1 e2 c d, A => by
    obtain ⟨K0, h0⟩ := PExpr.exists_condBounded A e1 e2
    obtain ⟨K1, R1, h1⟩ := Cmd.exists_check n c A
    obtain ⟨K2, R2, h2⟩ := Cmd.exists_check n d A
    exact ⟨max K0 (max K1 K2), R1.join R2, fun K hK => by
      simp [Cmd.check, h0 K (by omega), h1 K (by omega), h2 K (by omega)]⟩
  | n + 1, .loop op e1 e2 c, A => by
    obtain ⟨K0, h0⟩ := PExpr.exists_condBounded A e1 e2
    obtain ⟨K1, R1, h1⟩ := Cmd.exists_check n c A
    cases R1 with
    | unreached =>
      exact ⟨max K0 K1, .within A, fun K hK => by
        simp [Cmd.check, h0 K (by omega), h1 K (by omega)]⟩
    | within B =>
      obtain ⟨K2, R2, h2⟩ := Cmd.exists_check n (.loop op e1 e2 c) B
      exact ⟨max K0 (max K1 K2), (Outcome.within A).join R2, fun K hK => by
        simp [Cmd.check, h0 K (by omega), h1 K (by omega), h2 K (by omega)]⟩

section
variable {T T' : IntTy} (h : T.Within T')
include h

theorem Cmd.test_sim (o : Ops) (m : Mem) (op : CmpOp) (e1 e2 : PExpr) :
    (Cmd.test T o m op e1 e2).Sim (Cmd.test T' o m op e1 e2) :=
  .bind (Expr.eval_sim h o _) fun _ => .bind (Expr.eval_sim h o _) fun _ =>
    Fraction.cmp_self_sim h o _ _

/-- A run that is clean in one type is the same in a wider one. -/
theorem Cmd.exec_sim (o : Ops) : ∀ (n : ℕ) (c : Cmd) (m : Mem),
    (c.exec T o n m).Sim (c.exec T' o n m)
  | 0, _, _ => .refl _
  | n + 1, .skip, m => .refl _
  | n + 1, .assign x e, m => .bind (Expr.eval_sim h o _) fun _ => .refl _
  | n + 1, .seq c d, m => .bind (Cmd.exec_sim o n c m) fun r => by
      cases r with
      | none => exact .refl _
      | some m' => exact Cmd.exec_sim o n d m'
  | n + 1, .ite op e1 e2 c d, m => .bind (Cmd.test_sim h o m op e1 e2) fun b => by
      split
      · exact Cmd.exec_sim o n c m
      · exact Cmd.exec_sim o n d m
  | n + 1, .loop op e1 e2 c, m => .bind (Cmd.test_sim h o m op e1 e2) fun b => by
      split
      · refine .bind (Cmd.exec_sim o n c m) fun r => ?_
        cases r with
        | none => exact .refl _
        | some m' => exact Cmd.exec_sim o n (.loop op e1 e2 c) m'
      · exact .refl _

end

namespace Settles

variable {α β : Type}

theorem pure (v : α) : Settles (fun _ => Pure.pure v) v := ⟨0, fun _ _ _ => rfl⟩

/-- Settled computations compose. -/
theorem bind {f : IntTy → Res α} {g : IntTy → α → Res β} {v : α} {w : β} (hf : Settles f v)
    (hg : Settles (fun T => g T v) w) : Settles (fun T => f T >>= g T) w := by
  obtain ⟨N, hf⟩ := hf
  obtain ⟨M, hg⟩ := hg
  refine ⟨max N M, fun T hs hb => ?_⟩
  simp only [hf T hs (by omega), ok_bind_false]
  exact hg T hs (by omega)

theorem congr {f g : IntTy → Res α} {v : α} (h : ∀ T, f T = g T) (hf : Settles f v) :
    Settles g v := by
  rwa [show g = f from funext fun T => (h T).symm]

theorem map {P : α → Prop} {f : IntTy → Res α} (h : ∃ v, Settles f v ∧ P v) {Q : α → Prop}
    (hq : ∀ v T, T.signed = true → f T ⇓ v → P v → Q v) : ∃ v, Settles f v ∧ Q v := by
  obtain ⟨v, ⟨N, hv⟩, hP⟩ := h
  exact ⟨v, ⟨N, hv⟩, hq v ⟨true, max N 32, le_max_right _ _⟩ rfl (hv _ rfl (le_max_left _ _)) hP⟩

end Settles

theorem IntTy.inRange_of_natAbs {T : IntTy} {x : ℤ} (hs : T.signed = true)
    (h : (x.natAbs : ℤ) ≤ T.max) : T.InRange x := by
  have := min_signed hs
  constructor <;> omega

namespace Settles

theorem conv (n : ℤ) : Settles (fun T => T.conv n) n :=
  .of_max n.natAbs fun _ hs h => conv_clean.2 ⟨inRange_of_natAbs hs h, rfl⟩

theorem rawConv (f : Raw) : Settles (fun T => f.conv T) f :=
  .of_max (max f.num.natAbs f.den.natAbs) fun _ hs h => Raw.conv_clean.2
    ⟨⟨inRange_of_natAbs hs (by omega), inRange_of_natAbs hs (by omega)⟩, rfl⟩

theorem add (a b : ℤ) : Settles (fun T => T.add a b) (a + b) :=
  .of_max (a + b).natAbs fun _ hs h => add_clean.2 ⟨inRange_of_natAbs hs h, rfl⟩

theorem neg (a : ℤ) : Settles (fun T => T.neg a) (-a) :=
  .of_max (-a).natAbs fun _ hs h => neg_clean.2 ⟨inRange_of_natAbs hs h, rfl⟩

theorem _root_.Ieme.Fit.of_signed {T : IntTy} {K : ℕ} {x : ℤ} (hs : T.signed = true)
    (h : x.natAbs ≤ K) : Fit T K x := ⟨h, fun h' => by rw [hs] at h'; cases h'⟩

theorem _root_.Ieme.Args.exists_fit (a : Args) : ∃ B : ℕ, ∀ T : IntTy, T.signed = true → a.Fit T B := by
  cases a with
  | ff l r =>
    exact ⟨l.num.natAbs + l.den.natAbs + r.num.natAbs + r.den.natAbs, fun T hs =>
      ⟨⟨.of_signed hs (by omega), .of_signed hs (by omega)⟩,
        .of_signed hs (by omega), .of_signed hs (by omega)⟩⟩
  | fr l r =>
    exact ⟨l.num.natAbs + l.den.natAbs + r.natAbs, fun T hs =>
      ⟨⟨.of_signed hs (by omega), .of_signed hs (by omega)⟩, .of_signed hs (by omega)⟩⟩
  | rf l r =>
    exact ⟨l.natAbs + r.num.natAbs + r.den.natAbs, fun T hs =>
      ⟨.of_signed hs (by omega), .of_signed hs (by omega), .of_signed hs (by omega)⟩⟩

theorem arith (o : Ops) (op : ArithOp) {a : Args} {x y : ℚ} (ha : a.Denote x y)
    (h0 : op = .modulus → y ≠ 0) :
    ∃ r, Settles (fun T => Fraction.arith T T o op a) r ∧ op.Exact x y r := by
  obtain ⟨B, hB⟩ := a.exists_fit
  refine of_sim ((2 * (B * B) : ℕ) : ℤ) (fun T hs hK => ?_) fun T T' _ h =>
    Fraction.arith_self_sim h o op a
  obtain ⟨r, hr, -⟩ := Ops.arith_progress (o := o) (op := op) ha (hB T hs) hK (by
    cases op <;> simp_all [ArithOp.Allowed])
  exact ⟨r, by rw [Fraction.arith_self]; exact hr, Ops.arith_exact ha hr⟩

theorem cmp (o : Ops) (op : CmpOp) (a : Args) :
    ∃ b, Settles (fun T => Fraction.cmp T T o op a) b ∧
      ∃ T, T.signed = true ∧ o.cmp T op a ⇓ b := by
  obtain ⟨B, hB⟩ := a.exists_fit
  refine of_sim ((B * B : ℕ) : ℤ) (fun T hs hK => ?_) fun T T' _ h =>
    Fraction.cmp_self_sim h o op a
  obtain ⟨b, hb⟩ := Ops.cmp_progress (o := o) (op := op) (hB T hs) hK
  exact ⟨b, by rw [Fraction.cmp_self]; exact hb, T, hs, hb⟩

theorem negate (o : Ops) {f : Raw} {x : ℚ} (hx : Denotes f x) :
    ∃ r, Settles (fun T => Fraction.neg T o f) r ∧ Denotes r (-x) := by
  refine of_sim ((f.num.natAbs + f.den.natAbs : ℕ) : ℤ) (fun T hs hK => ?_) fun T T' _ h =>
    Ops.negate_sim h o f
  obtain ⟨r, hr, -⟩ := Ops.negate_progress (o := o) (v := f) hs
    ⟨.of_signed hs (Nat.le_add_right _ _), .of_signed hs (Nat.le_add_left _ _)⟩ hK
  exact ⟨r, hr, Ops.negate_exact hx hr⟩

theorem _root_.Ieme.Raw.absLe_self (f : Raw) : f.AbsLe (f.num.natAbs + f.den.natAbs) :=
  ⟨Nat.le_add_right _ _, Nat.le_add_left _ _⟩

theorem mixedMk (o : Ops) (w : ℤ) {f : Raw} {x : ℚ} (hx : Denotes f x) :
    ∃ m, Settles (fun T => Mixed.mk' T T o w f) m ∧ m.Denotes (w + x) := by
  refine of_sim ((f.num.natAbs + f.den.natAbs + w.natAbs + (ratTrunc x).natAbs : ℕ) : ℤ)
    (fun T hs hK => ?_) fun T T' _ h => Mixed.mk_sim h h o w f
  have hw : T.InRange w := inRange_of_natAbs hs (by omega)
  obtain ⟨m, hm⟩ := C42_construction_finishes (o := o) (W := T) hs
    (K := f.num.natAbs + f.den.natAbs) (by omega) f.absLe_self hx hw
    (inRange_of_natAbs hs (by omega)) (inRange_of_natAbs hs (by omega))
  exact ⟨m, hm, C42_construction_exact hw hx hm⟩

theorem mixedOfFraction (o : Ops) {f : Raw} {x : ℚ} (hx : Denotes f x) :
    ∃ m, Settles (fun T => Mixed.ofFraction T T o T f) m ∧ m.Denotes x := by
  refine of_sim ((f.num.natAbs + f.den.natAbs + (ratTrunc x).natAbs : ℕ) : ℤ)
    (fun T hs hK => ?_) fun T T' _ h => Mixed.ofFraction_sim h h h o f
  obtain ⟨m, hm⟩ := C42_from_fraction_finishes (o := o) (W := T) hs hs
    (K := f.num.natAbs + f.den.natAbs) (by omega) (by omega) f.absLe_self hx
    (inRange_of_natAbs hs (by omega))
  exact ⟨m, hm, (C42_from_fraction_exact hx hm).1⟩

theorem mixedNeg (o : Ops) {m : Mixed} {x : ℚ} (hx : m.Denotes x) :
    ∃ r, Settles (fun T => m.neg T T o) r ∧ r.Denotes (-x) := by
  obtain ⟨y, hy, rfl⟩ := hx
  obtain ⟨f, hf, hfd⟩ := negate o hy
  obtain ⟨r, hr, hrd⟩ := mixedMk o (-m.whole) hfd
  refine ⟨r, (neg m.whole).bind (hf.bind hr), ?_⟩
  convert hrd using 1
  push_cast; ring

theorem mixedAdd (o : Ops) {l r : Mixed} {x y : ℚ} (hx : l.Denotes x) (hy : r.Denotes y) :
    ∃ m, Settles (fun T => Mixed.add T T T T o l r) m ∧ m.Denotes (x + y) := by
  obtain ⟨x', hx', rfl⟩ := hx
  obtain ⟨y', hy', rfl⟩ := hy
  obtain ⟨f, hf, hfd⟩ := arith o .plus (a := .ff l.frac r.frac) ⟨hx', hy'⟩ (by simp)
  obtain ⟨m, hm, hmd⟩ := mixedMk o (l.whole + r.whole) hfd
  refine ⟨m, ?_, ?_⟩
  · simp only [Mixed.add, IntTy.common_self, Fraction.ofOther]
    exact bind (conv _) (bind (conv _) (bind (add _ _)
      (bind (rawConv _) (bind (rawConv _) (bind hf hm)))))
  · convert hmd using 1
    push_cast; ring

theorem mixedAddFraction (o : Ops) {l : Mixed} {f : Raw} {x y : ℚ} (hx : l.Denotes x)
    (hy : Denotes f y) :
    ∃ m, Settles (fun T => Mixed.addFraction T T T o l f) m ∧ m.Denotes (x + y) := by
  obtain ⟨r, hr, hrd⟩ := mixedOfFraction o hy
  obtain ⟨m, hm, hmd⟩ := mixedAdd o hx hrd
  exact ⟨m, bind hr hm, hmd⟩

theorem mixedAddWhole (o : Ops) {l : Mixed} (n : ℤ) {x : ℚ} (hx : l.Denotes x) :
    ∃ m, Settles (fun T => Mixed.addWhole T T T o l n) m ∧ m.Denotes (x + n) := by
  obtain ⟨x', hx', rfl⟩ := hx
  obtain ⟨m, hm, hmd⟩ := mixedMk o (l.whole + n) hx'
  refine ⟨m, ?_, ?_⟩
  · simp only [Mixed.addWhole, IntTy.common_self]
    exact bind (conv _) (bind (conv _) (bind (add _ _) hm))
  · convert hmd using 1
    push_cast; ring

theorem mixedAsFraction (o : Ops) {l : Mixed} {x : ℚ} (hx : l.Denotes x) :
    ∃ r, Settles (fun T => l.asFraction T T o) r ∧ Denotes r x := by
  obtain ⟨x', hx', rfl⟩ := hx
  obtain ⟨r, hr, hrd⟩ := arith o .plus (a := .rf l.whole l.frac) ⟨rfl, hx'⟩ (by simp)
  refine ⟨r, ?_, hrd⟩
  simp only [Mixed.asFraction, IntTy.common_self, Fraction.ofOther]
  exact bind (conv _) (bind (rawConv _) hr)

end Settles

theorem MExpr.retype_ty (T : IntTy) : ∀ e : MExpr, (e.retype T).ty = (T, T)
  | .dflt _ _ => rfl
  | .mk _ _ _ _ => rfl
  | .ofFraction _ _ _ _ => rfl
  | .pos e => e.retype_ty T
  | .neg e => e.retype_ty T
  | .add l r => by simp [retype, ty, l.retype_ty T, r.retype_ty T]
  | .addFraction e _ _ => by simp [retype, ty, e.retype_ty T]
  | .addWhole e _ _ => by simp [retype, ty, e.retype_ty T]

theorem denotes_of_litValue {f : Raw} {x : ℚ} (h : litValue f = some x) : Denotes f x := by
  unfold litValue at h
  split at h
  · cases h
  · cases h; exact denotes_self ‹_›

theorem Settles.mexpr (o : Ops) : ∀ (e : MExpr) {q : ℚ}, e.value = some q →
    ∃ m, Settles (fun T => (e.retype T).eval o) m ∧ m.Denotes q
  | .dflt _ _, q, h => by
    cases h
    exact ⟨_, pure _, 0, by norm_num [Mixed.default, Fraction.default, Denotes],
      by norm_num [Mixed.default]⟩
  | .mk _ _ w f, q, h => by
    obtain ⟨x, hx, rfl⟩ := Option.map_eq_some_iff.1 h
    exact mixedMk o w (denotes_of_litValue hx)
  | .ofFraction _ _ _ f, q, h => mixedOfFraction o (denotes_of_litValue h)
  | .pos e, q, h => by
    obtain ⟨m, hm, hd⟩ := Settles.mexpr o e h
    exact ⟨m, bind hm (pure m), hd⟩
  | .neg e, q, h => by
    obtain ⟨x, hx, rfl⟩ := Option.map_eq_some_iff.1 h
    obtain ⟨m, hm, hd⟩ := Settles.mexpr o e hx
    obtain ⟨r, hr, hrd⟩ := mixedNeg o hd
    refine ⟨r, ?_, hrd⟩
    simp only [MExpr.retype, MExpr.eval, MExpr.retype_ty]
    exact bind hm hr
  | .add l r, q, h => by
    obtain ⟨x, hx, h⟩ := Option.bind_eq_some_iff.1 h
    obtain ⟨y, hy, rfl⟩ := Option.map_eq_some_iff.1 h
    obtain ⟨m, hm, hd⟩ := Settles.mexpr o l hx
    obtain ⟨m', hm', hd'⟩ := Settles.mexpr o r hy
    obtain ⟨r, hr, hrd⟩ := mixedAdd o hd hd'
    refine ⟨r, ?_, hrd⟩
    simp only [MExpr.retype, MExpr.eval, MExpr.retype_ty]
    exact bind hm (bind hm' hr)
  | .addFraction e _ f, q, h => by
    obtain ⟨x, hx, h⟩ := Option.bind_eq_some_iff.1 h
    obtain ⟨y, hy, rfl⟩ := Option.map_eq_some_iff.1 h
    obtain ⟨m, hm, hd⟩ := Settles.mexpr o e hx
    obtain ⟨r, hr, hrd⟩ := mixedAddFraction o hd (denotes_of_litValue hy)
    refine ⟨r, ?_, hrd⟩
    simp only [MExpr.retype, MExpr.eval, MExpr.retype_ty]
    exact bind hm hr
  | .addWhole e _ n, q, h => by
    obtain ⟨x, hx, rfl⟩ := Option.map_eq_some_iff.1 h
    obtain ⟨m, hm, hd⟩ := Settles.mexpr o e hx
    obtain ⟨r, hr, hrd⟩ := mixedAddWhole o n hd
    refine ⟨r, ?_, hrd⟩
    simp only [MExpr.retype, MExpr.eval, MExpr.retype_ty]
    exact bind hm hr

/-- More steps do not change a completed run. -/
theorem Cmd.exec_succ {T : IntTy} {o : Ops} : ∀ (n : ℕ) (c : Cmd) (m m' : Mem),
    c.exec T o n m ⇓ some m' → c.exec T o (n + 1) m ⇓ some m'
  | 0, _, _, _, h => by simp [Cmd.exec, pure_def] at h
  | n + 1, .skip, m, m', h => h
  | n + 1, .assign x e, m, m', h => h
  | n + 1, .seq c d, m, m', h => by
    rw [Cmd.exec] at h ⊢
    obtain ⟨r, h1, h2⟩ := bind_eq_clean.1 h
    cases r with
    | none => simp [pure_def] at h2
    | some m1 =>
      rw [Cmd.exec_succ n c m m1 h1, ok_bind_false]
      exact Cmd.exec_succ n d m1 m' h2
  | n + 1, .ite op e1 e2 c d, m, m', h => by
    rw [Cmd.exec] at h ⊢
    obtain ⟨b, h1, h2⟩ := bind_eq_clean.1 h
    rw [h1, ok_bind_false]
    split at h2
    · rw [if_pos ‹_›]; exact Cmd.exec_succ n c m m' h2
    · rw [if_neg ‹_›]; exact Cmd.exec_succ n d m m' h2
  | n + 1, .loop op e1 e2 c, m, m', h => by
    rw [Cmd.exec] at h ⊢
    obtain ⟨b, h1, h2⟩ := bind_eq_clean.1 h
    rw [h1, ok_bind_false]
    split at h2
    · rw [if_pos ‹_›]
      obtain ⟨r, h3, h4⟩ := bind_eq_clean.1 h2
      cases r with
      | none => simp [pure_def] at h4
      | some m1 =>
        rw [Cmd.exec_succ n c m m1 h3, ok_bind_false]
        exact Cmd.exec_succ n _ m1 m' h4
    · rw [if_neg ‹_›]; exact h2

theorem Cmd.exec_ge {T : IntTy} {o : Ops} {n k : ℕ} {c : Cmd} {m m' : Mem} (hk : n ≤ k)
    (h : c.exec T o n m ⇓ some m') : c.exec T o k m ⇓ some m' := by
  induction k, hk using Nat.le_induction with
  | base => exact h
  | succ k _ ih => exact Cmd.exec_succ k c m m' ih

end Ieme
