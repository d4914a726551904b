import Mathlib.Data.Nat.Cast.Field
import Mathlib.Data.ZMod.Basic
import Mathlib.Tactic.FieldSimp
import Mathlib.Tactic.Ring
import Verif.Lemmas.ToSafe
import Verif.Spec.Modular

/-!
# `fast` over an unsigned type is arithmetic modulo `2^bits`
-/

namespace Ieme
open Res

variable {T : IntTy} {f g : Raw} {n : ℤ}

/-- An arithmetic operator of an unsigned type gives the residue. -/
theorem IntTy.arith_residue (hs : T.signed = false) (x : ℤ) :
    ∃ w, T.arith x = .ok (x % 2 ^ T.bits) w := by
  by_cases h : T.InRange x
  · refine ⟨false, ?_⟩
    rw [arith_of_inRange h]
    simp only [IntTy.InRange, IntTy.min, IntTy.max, hs] at h
    push_cast at h
    rw [Int.emod_eq_of_lt (by simpa using h.1) (by have := h.2; omega)]
  · refine ⟨true, ?_⟩
    rw [arith_eq_ok]
    right
    refine ⟨h, hs, ?_, rfl⟩
    simp [IntTy.wrap, hs]

/-- An integer of an unsigned type is its own residue. -/
theorem IntTy.InRange.residue (hs : T.signed = false) (h : T.InRange n) : n % 2 ^ T.bits = n := by
  simp only [IntTy.InRange, IntTy.min, IntTy.max, hs] at h
  push_cast at h
  exact Int.emod_eq_of_lt (by simpa using h.1) (by have := h.2; omega)

/-- Residues fit. -/
theorem IntTy.residue_inRange (hs : T.signed = false) (x : ℤ) : T.InRange (x % 2 ^ T.bits) := by
  have hp : (0 : ℤ) < 2 ^ T.bits := by positivity
  have h1 := Int.emod_nonneg x hp.ne'
  have h2 := Int.emod_lt_of_pos x hp
  simp only [IntTy.InRange, IntTy.min, IntTy.max, hs]
  push_cast
  constructor
  · simpa using h1
  · omega

theorem Raw.InRange.residue (hs : T.signed = false) (h : f.InRange T) : f.residue T.bits = f := by
  simp only [Raw.residue, h.1.residue hs, h.2.residue hs]

theorem Raw.residue_inRange (hs : T.signed = false) (f : Raw) : (f.residue T.bits).InRange T :=
  ⟨T.residue_inRange hs _, T.residue_inRange hs _⟩

/-- Congruence by calculation in `ℤ/2^N`. -/
theorem emod_eq_of_zmod {N : ℕ} {a b : ℤ} (h : (a : ZMod (2 ^ N)) = b) :
    a % 2 ^ N = b % 2 ^ N := by
  have := (ZMod.intCast_eq_intCast_iff' a b (2 ^ N)).1 h
  simpa using this

theorem zmod_emod {N : ℕ} (a : ℤ) : ((a % 2 ^ N : ℤ) : ZMod (2 ^ N)) = a := by
  have := ZMod.intCast_mod a (2 ^ N)
  simpa using this


/-- Operators of `fast` on residues give the residue of the schoolbook result. -/
theorem Fast.arith_residue (hs : T.signed = false) {op : ArithOp} (hop : op ≠ .modulus) :
    (∀ f g, ∃ w, Ops.fast.arith T op (.ff (f.residue T.bits) (g.residue T.bits)) =
      .ok ((op.crossParts f g).residue T.bits) w) ∧
    (∀ f n, ∃ w, Ops.fast.arith T op (.fr (f.residue T.bits) n) =
      .ok ((op.crossParts f ⟨n, 1⟩).residue T.bits) w) ∧
    ∀ n g, ∃ w, Ops.fast.arith T op (.rf n (g.residue T.bits)) =
      .ok ((op.crossParts ⟨n, 1⟩ g).residue T.bits) w := by
  choose w hw using IntTy.arith_residue hs
  refine ⟨fun f g => ?_, fun f n => ?_, fun n g => ?_⟩ <;> cases op <;> first
    | exact absurd rfl hop
    | (simp only [Ops.arith, Fast.arith, Fast.plusFF, Fast.plusFR, Fast.plusRF, Fast.minusFF,
        Fast.minusFR, Fast.minusRF, Fast.multipliesFF, Fast.multipliesFR, Fast.multipliesRF,
        Fast.dividesFF, Fast.dividesFR, Fast.dividesRF, IntTy.mul, IntTy.add, IntTy.sub, hw, bind_def,
        Res.bind, pure_def, ArithOp.crossParts, ArithOp.overCommon, Raw.residue, Res.ok.injEq,
        Raw.mk.injEq, exists_and_left, exists_eq', and_true]
       constructor <;>
        (apply emod_eq_of_zmod
         push_cast [zmod_emod]
         ring))

theorem Fast.negate_residue (hs : T.signed = false) (f : Raw) :
    ∃ w, Ops.fast.negate T (f.residue T.bits) =
      .ok ((⟨-f.num, f.den⟩ : Raw).residue T.bits) w := by
  choose w hw using IntTy.arith_residue hs
  simp only [Ops.negate, Fast.negate, IntTy.neg, hw, bind_def, Res.bind, pure_def, Raw.residue,
    Res.ok.injEq, Raw.mk.injEq, exists_and_left, exists_eq', and_true]
  apply emod_eq_of_zmod
  push_cast [zmod_emod]
  ring

/-- Comparisons of `fast` on residues compare the residues of the cross products. -/
theorem Fast.cmp_residue (hs : T.signed = false) (op : CmpOp) (f g : Raw) :
    ∃ w, Ops.fast.cmp T op (.ff (f.residue T.bits) (g.residue T.bits)) =
      .ok (op.holdsMod T.bits f g) w := by
  choose w hw using IntTy.arith_residue hs
  have key (x y : ℤ) : x % 2 ^ T.bits * (y % 2 ^ T.bits) % 2 ^ T.bits = x * y % 2 ^ T.bits := by
    apply emod_eq_of_zmod
    push_cast [zmod_emod]
    ring
  cases op <;>
    simp only [Ops.cmp, Fast.cmp, Fast.equalToFF, Fast.notEqualToFF, Fast.lessFF, Fast.lessEqualFF,
      Fast.greaterFF, Fast.greaterEqualFF, IntTy.mul, hw, bind_def, Res.bind, pure_def, Raw.residue,
      key, Raw.isDefined, CmpOp.holdsMod, CmpOp.decideInt, Res.ok.injEq] <;>
    generalize f.den % 2 ^ T.bits = a <;> generalize g.den % 2 ^ T.bits = b <;>
    by_cases h1 : a = 0 <;> by_cases h2 : b = 0 <;>
    simp [h1, h2, bne, beq_eq_false_iff_ne.2]

/-- An expression on residues gives the residue of its schoolbook parts. -/
theorem PExpr.eval_residue (hs : T.signed = false) {e : PExpr} (he : e.Plain T) (m : Mem) :
    ∃ w, (e.inst fun x => (m x).residue T.bits).eval T .fast =
      .ok ((e.inst m).formal.residue T.bits) w := by
  induction e with
  | var x => exact ⟨false, rfl⟩
  | lit f => exact ⟨false, by simp only [PExpr.inst, Expr.eval, Expr.formal, he.residue hs, pure_def]⟩
  | neg e ih =>
    obtain ⟨w, h⟩ := ih he
    obtain ⟨w', h'⟩ := Fast.negate_residue hs (e.inst m).formal
    exact ⟨w || w', by simp only [PExpr.inst, Expr.eval, Expr.formal, h, Fraction.neg, bind_def,
      Res.bind, h']⟩
  | pos e ih =>
    obtain ⟨w, h⟩ := ih he
    exact ⟨w, by simp only [PExpr.inst, Expr.eval, Expr.formal, h, Fraction.pos, bind_def, Res.bind,
      pure_def, Bool.or_false]⟩
  | ff op e1 e2 ih1 ih2 =>
    obtain ⟨w1, h1⟩ := ih1 he.2.1
    obtain ⟨w2, h2⟩ := ih2 he.2.2
    obtain ⟨w, h⟩ := (Fast.arith_residue hs he.1).1 (e1.inst m).formal (e2.inst m).formal
    exact ⟨w1 || (w2 || w), by simp only [PExpr.inst, Expr.eval, Expr.formal, h1, h2, bind_def,
      Res.bind, Fraction.arith_self, h]⟩
  | fr op e n ih =>
    obtain ⟨w1, h1⟩ := ih he.2
    obtain ⟨w, h⟩ := (Fast.arith_residue hs he.1).2.1 (e.inst m).formal n
    exact ⟨w1 || w, by simp only [PExpr.inst, Expr.eval, Expr.formal, h1, bind_def, Res.bind,
      Fraction.arith_self, h]⟩
  | rf op n e ih =>
    obtain ⟨w1, h1⟩ := ih he.2
    obtain ⟨w, h⟩ := (Fast.arith_residue hs he.1).2.2 n (e.inst m).formal
    exact ⟨w1 || w, by simp only [PExpr.inst, Expr.eval, Expr.formal, h1, bind_def, Res.bind,
      Fraction.arith_self, h]⟩

/-- An expression of objects as one without variables. -/
def Expr.toP : Expr → PExpr
  | .lit f => .lit f
  | .neg e => .neg e.toP
  | .pos e => .pos e.toP
  | .ff op e1 e2 => .ff op e1.toP e2.toP
  | .fr op e n => .fr op e.toP n
  | .rf op n e => .rf op n e.toP

theorem Expr.inst_toP (e : Expr) (m : Mem) : e.toP.inst m = e := by
  induction e <;> simp_all [Expr.toP, PExpr.inst]

theorem Expr.Plain.toP {e : Expr} (he : e.Plain T) : e.toP.Plain T := by
  induction e with
  | lit f => exact he
  | neg e ih => exact ih he
  | pos e ih => exact ih he
  | ff op e1 e2 ih1 ih2 => exact ⟨he.1, ih1 he.2.1, ih2 he.2.2⟩
  | fr op e n ih => exact ⟨he.1, ih he.2⟩
  | rf op n e ih => exact ⟨he.1, ih he.2⟩

theorem Expr.eval_residue (hs : T.signed = false) {e : Expr} (he : e.Plain T) :
    ∃ w, e.eval T .fast = .ok (e.formal.residue T.bits) w := by
  have := PExpr.eval_residue hs he.toP fun _ => ⟨0, 1⟩
  simpa only [Expr.inst_toP] using this

theorem Cmd.test_residue (hs : T.signed = false) {e1 e2 : PExpr} (h1 : e1.Plain T)
    (h2 : e2.Plain T) (op : CmpOp) (m : Mem) :
    ∃ w, Cmd.test T .fast (fun x => (m x).residue T.bits) op e1 e2 =
      .ok (op.holdsMod T.bits (e1.inst m).formal (e2.inst m).formal) w := by
  obtain ⟨w1, h1⟩ := PExpr.eval_residue hs h1 m
  obtain ⟨w2, h2⟩ := PExpr.eval_residue hs h2 m
  obtain ⟨w, h⟩ := Fast.cmp_residue hs op (e1.inst m).formal (e2.inst m).formal
  exact ⟨w1 || (w2 || w), by simp only [Cmd.test, h1, h2, bind_def, Res.bind, Fraction.cmp_self, h]⟩

/-- A whole program. -/
theorem Cmd.exec_residue (hs : T.signed = false) {c : Cmd} (hc : c.Plain T) (n : ℕ) (m : Mem) :
    ∃ w, c.exec T .fast n (fun x => (m x).residue T.bits) =
      .ok ((c.formalExec T.bits n m).map fun m' x => (m' x).residue T.bits) w := by
  induction n generalizing c m with
  | zero => exact ⟨false, rfl⟩
  | succ n ih =>
    cases c with
    | skip => exact ⟨false, rfl⟩
    | assign x e =>
      obtain ⟨w, h⟩ := PExpr.eval_residue hs hc m
      refine ⟨w, ?_⟩
      simp only [Cmd.exec, Cmd.formalExec, h, bind_def, Res.bind, pure_def, Bool.or_false,
        Option.map_some, Res.ok.injEq, Option.some.injEq, and_true]
      funext y
      split <;> rfl
    | seq c d =>
      obtain ⟨w, h⟩ := ih hc.1 m
      simp only [Cmd.exec, Cmd.formalExec, h, bind_def, Res.bind]
      cases hm : c.formalExec T.bits n m with
      | none => exact ⟨w, by simp [pure_def]⟩
      | some m' =>
        obtain ⟨w', h'⟩ := ih hc.2 m'
        exact ⟨w || w', by simp [h']⟩
    | ite op e1 e2 c d =>
      obtain ⟨w, h⟩ := Cmd.test_residue hs hc.1 hc.2.1 op m
      simp only [Cmd.exec, Cmd.formalExec, h, bind_def, Res.bind]
      cases op.holdsMod T.bits (e1.inst m).formal (e2.inst m).formal with
      | true =>
        obtain ⟨w', h'⟩ := ih hc.2.2.1 m
        exact ⟨w || w', by simp only [if_true, h']⟩
      | false =>
        obtain ⟨w', h'⟩ := ih hc.2.2.2 m
        exact ⟨w || w', by simp only [Bool.false_eq_true, if_false, h']⟩
    | loop op e1 e2 c =>
      obtain ⟨w, h⟩ := Cmd.test_residue hs hc.1 hc.2.1 op m
      simp only [Cmd.exec, Cmd.formalExec, h, bind_def, Res.bind]
      cases op.holdsMod T.bits (e1.inst m).formal (e2.inst m).formal with
      | true =>
        obtain ⟨w1, h1⟩ := ih hc.2.2 m
        cases hm : c.formalExec T.bits n m with
        | none => exact ⟨w || w1, by simp [h1, hm, pure_def]⟩
        | some m' =>
          obtain ⟨w', h'⟩ := ih (c := .loop op e1 e2 c) hc m'
          exact ⟨w || (w1 || w'), by simp [h1, hm, h']⟩
      | false => exact ⟨w, by simp [pure_def]⟩

/-- The schoolbook parts have the value of the expression. -/
theorem Expr.formal_denotes {e : Expr} (he : e.Plain T) {q : ℚ} (hq : e.value = some q) :
    Denotes e.formal q := by
  have key {op : ArithOp} {f g : Raw} {x y z : ℚ} (hop : op ≠ .modulus) (hf : Denotes f x)
      (hg : Denotes g y) (h : op.value x y = some z) : Denotes (op.crossParts f g) z := by
    obtain ⟨h1, rfl⟩ := hf
    obtain ⟨h2, rfl⟩ := hg
    have h1' : (f.den : ℚ) ≠ 0 := by exact_mod_cast h1
    have h2' : (g.den : ℚ) ≠ 0 := by exact_mod_cast h2
    cases op with
    | plus =>
      cases h
      refine ⟨mul_ne_zero h1 h2, ?_⟩
      simp only [ArithOp.crossParts, ArithOp.overCommon]
      push_cast
      field_simp
    | minus =>
      cases h
      refine ⟨mul_ne_zero h1 h2, ?_⟩
      simp only [ArithOp.crossParts, ArithOp.overCommon]
      push_cast
      field_simp
    | multiplies =>
      cases h
      refine ⟨mul_ne_zero h1 h2, ?_⟩
      simp only [ArithOp.crossParts]
      push_cast
      field_simp
    | divides =>
      simp only [ArithOp.value] at h
      split at h
      · cases h
      · rename_i hy
        cases h
        have hn : g.num ≠ 0 := by rintro h; apply hy; simp [h]
        have hn' : (g.num : ℚ) ≠ 0 := by exact_mod_cast hn
        refine ⟨mul_ne_zero h1 hn, ?_⟩
        simp only [ArithOp.crossParts]
        push_cast
        field_simp
    | modulus => exact absurd rfl hop
  have hint (n : ℤ) : Denotes ⟨n, 1⟩ n := ⟨by simp, by simp⟩
  induction e generalizing q with
  | lit f =>
    simp only [Expr.value, litValue] at hq
    split at hq
    · cases hq
    · rename_i h
      cases hq
      exact ⟨h, rfl⟩
  | neg e ih =>
    simp only [Expr.value, Option.map_eq_some_iff] at hq
    obtain ⟨x, hx, rfl⟩ := hq
    obtain ⟨h1, rfl⟩ := ih he hx
    refine ⟨h1, ?_⟩
    simp only [Expr.formal]
    push_cast
    ring
  | pos e ih => exact ih he hq
  | ff op e1 e2 ih1 ih2 =>
    simp only [Expr.value, Option.bind_eq_some_iff] at hq
    obtain ⟨x, hx, y, hy, h⟩ := hq
    exact key he.1 (ih1 he.2.1 hx) (ih2 he.2.2 hy) h
  | fr op e n ih =>
    simp only [Expr.value, Option.bind_eq_some_iff] at hq
    obtain ⟨x, hx, h⟩ := hq
    exact key he.1 (ih he.2 hx) (hint n) h
  | rf op n e ih =>
    simp only [Expr.value, Option.bind_eq_some_iff] at hq
    obtain ⟨x, hx, h⟩ := hq
    exact key he.1 (hint n) (ih he.2 hx) h

/-! ## `safe` -/

theorem Expr.commonDen_pos {e : Expr} (he : e.Polynomial) : 0 < e.commonDen := by
  induction e with
  | lit f =>
    have : 0 < f.den := he
    simp only [Expr.commonDen]
    omega
  | neg e ih => exact ih he
  | pos e ih => exact ih he
  | ff op e1 e2 ih1 ih2 =>
    have h1 := ih1 he.2.1
    have h2 := ih2 he.2.2
    rcases he.1 with rfl | rfl | rfl
    · exact Nat.lcm_pos h1 h2
    · exact Nat.lcm_pos h1 h2
    · exact Nat.mul_pos h1 h2
  | fr op e n ih =>
    have h1 := ih he.2
    rcases he.1 with rfl | rfl | rfl | ⟨rfl, hn⟩
    · exact h1
    · exact h1
    · exact h1
    · exact Nat.mul_pos h1 (by omega)
  | rf op n e ih => exact ih he.2

private theorem inRange_nat (hs : T.signed = false) {k : ℕ} : T.InRange k ↔ (k : ℤ) ≤ T.max := by
  simp [IntTy.InRange, IntTy.min, hs]

private theorem InRange.of_dvd (hs : T.signed = false) {k l : ℕ} (h : k ∣ l) (hl : 0 < l)
    (hr : T.InRange l) : T.InRange k := by
  rw [inRange_nat hs] at *
  have := Nat.le_of_dvd hl h
  omega

/-- Sums over the least common multiple of the denominators. -/
private theorem over_lcm (hs : T.signed = false) {a b : ℕ} (ha : 0 < a) (hb : 0 < b)
    (h : T.InRange (Nat.lcm a b)) : T.lcm a b ⇓ (Nat.lcm a b : ℤ) ∧
      T.div (Nat.lcm a b : ℤ) a ⇓ ((Nat.lcm a b / a : ℕ) : ℤ) ∧
      T.div (Nat.lcm a b : ℤ) b ⇓ ((Nat.lcm a b / b : ℕ) : ℤ) := by
  have hp := Nat.lcm_pos ha hb
  have h1 := InRange.of_dvd hs (Nat.dvd_lcm_left a b) hp h
  have h2 := InRange.of_dvd hs (Nat.dvd_lcm_right a b) hp h
  refine ⟨?_, ?_, ?_⟩
  · have e : Int.lcm a b = Nat.lcm a b := by simp [Int.lcm]
    simp [IntTy.lcm, e, h, h1, h2]
  · have e : (Nat.lcm a b : ℤ).tdiv a = ((Nat.lcm a b / a : ℕ) : ℤ) := by
      rw [Int.tdiv_eq_ediv_of_nonneg (by omega)]; push_cast; rfl
    have : T.InRange ((Nat.lcm a b / a : ℕ) : ℤ) :=
      InRange.of_dvd hs (Nat.div_dvd_of_dvd (Nat.dvd_lcm_left a b)) hp h
    rw [IntTy.div, e, if_neg (by omega), if_pos this]
  · have e : (Nat.lcm a b : ℤ).tdiv b = ((Nat.lcm a b / b : ℕ) : ℤ) := by
      rw [Int.tdiv_eq_ediv_of_nonneg (by omega)]; push_cast; rfl
    have : T.InRange ((Nat.lcm a b / b : ℕ) : ℤ) :=
      InRange.of_dvd hs (Nat.div_dvd_of_dvd (Nat.dvd_lcm_right a b)) hp h
    rw [IntTy.div, e, if_neg (by omega), if_pos this]

/-- Under `safe` the numerator is right modulo `2^bits` when the denominator fits. -/
theorem Expr.eval_safe_residue (hs : T.signed = false) {e : Expr} (he : e.Polynomial)
    (hl : e.LeavesInRange T) (hd : T.InRange e.commonDen) :
    ∃ (p : ℤ) (w : Bool), e.eval T .safe = .ok ⟨p % 2 ^ T.bits, e.commonDen⟩ w ∧
      e.value = some ((p : ℚ) / e.commonDen) := by
  choose w hw using IntTy.arith_residue hs
  have hpos {e : Expr} (he : e.Polynomial) : (e.commonDen : ℚ) ≠ 0 := by
    have := Expr.commonDen_pos he
    positivity
  induction e with
  | lit f =>
    have h0 : 0 < f.den := he
    have e0 : ((f.den.natAbs : ℕ) : ℤ) = f.den := by omega
    refine ⟨f.num, false, ?_, ?_⟩
    · simp only [Expr.eval, Expr.commonDen, e0, hl.1.residue hs, pure_def]
    · have : ((f.den.natAbs : ℕ) : ℚ) = f.den := by rw [← Int.cast_natCast, e0]
      rw [Expr.value, litValue, if_neg h0.ne', Expr.commonDen, this]
  | neg e ih =>
    obtain ⟨p, w1, h1, v1⟩ := ih he hl hd
    refine ⟨-p, w1 || (w (-(p % 2 ^ T.bits)) || false), ?_, ?_⟩
    · simp only [Expr.eval, h1, bind_def, Res.bind, Fraction.neg, Ops.negate, Safe.negate, IntTy.neg,
        hw, pure_def, Expr.commonDen, Res.ok.injEq, Raw.mk.injEq, and_true]
      apply emod_eq_of_zmod
      push_cast [zmod_emod]
      ring
    · simp only [Expr.value, v1, Option.map_some, Expr.commonDen, Option.some.injEq]
      push_cast
      ring
  | pos e ih =>
    obtain ⟨p, w1, h1, v1⟩ := ih he hl hd
    exact ⟨p, w1, by simp only [Expr.eval, h1, bind_def, Res.bind, Fraction.pos, pure_def,
      Bool.or_false, Expr.commonDen], v1⟩
  | ff op e1 e2 ih1 ih2 =>
    have p1 := Expr.commonDen_pos he.2.1
    have p2 := Expr.commonDen_pos he.2.2
    have d1 : T.InRange e1.commonDen := by
      rcases he.1 with rfl | rfl | rfl
      · exact InRange.of_dvd hs (Nat.dvd_lcm_left _ _) (Nat.lcm_pos p1 p2) hd
      · exact InRange.of_dvd hs (Nat.dvd_lcm_left _ _) (Nat.lcm_pos p1 p2) hd
      · exact InRange.of_dvd hs (Nat.dvd_mul_right _ _) (Nat.mul_pos p1 p2) hd
    have d2 : T.InRange e2.commonDen := by
      rcases he.1 with rfl | rfl | rfl
      · exact InRange.of_dvd hs (Nat.dvd_lcm_right _ _) (Nat.lcm_pos p1 p2) hd
      · exact InRange.of_dvd hs (Nat.dvd_lcm_right _ _) (Nat.lcm_pos p1 p2) hd
      · exact InRange.of_dvd hs (Nat.dvd_mul_left _ _) (Nat.mul_pos p1 p2) hd
    obtain ⟨x, w1, h1, v1⟩ := ih1 he.2.1 hl.1 d1
    obtain ⟨y, w2, h2, v2⟩ := ih2 he.2.2 hl.2 d2
    have q1 := hpos he.2.1
    have q2 := hpos he.2.2
    rcases he.1 with rfl | rfl | rfl
    · obtain ⟨l1, l2, l3⟩ := over_lcm hs p1 p2 hd
      refine ⟨(Nat.lcm e1.commonDen e2.commonDen / e1.commonDen : ℕ) * x +
        (Nat.lcm e1.commonDen e2.commonDen / e2.commonDen : ℕ) * y, ?_⟩
      simp only [Expr.eval, h1, h2, bind_def, Res.bind, Fraction.arith_self, Ops.arith, Safe.arith,
        Safe.plusFF, l1, l2, l3, IntTy.mul, IntTy.add, hw, pure_def, Expr.commonDen, Res.ok.injEq,
        Raw.mk.injEq, and_true, exists_and_left, exists_and_right, exists_eq']
      refine ⟨?_, ?_⟩
      · apply emod_eq_of_zmod
        push_cast [zmod_emod]
        ring
      · simp only [Expr.value, v1, v2, Option.bind_some, ArithOp.value, Option.some.injEq]
        have r1 := Nat.cast_div (K := ℚ) (Nat.dvd_lcm_left e1.commonDen e2.commonDen) q1
        have r2 := Nat.cast_div (K := ℚ) (Nat.dvd_lcm_right e1.commonDen e2.commonDen) q2
        have q3 : ((Nat.lcm e1.commonDen e2.commonDen : ℕ) : ℚ) ≠ 0 := by
          have := Nat.lcm_pos p1 p2
          positivity
        rw [Int.cast_add, Int.cast_mul, Int.cast_mul, Int.cast_natCast, Int.cast_natCast, r1, r2]
        field_simp
    · obtain ⟨l1, l2, l3⟩ := over_lcm hs p1 p2 hd
      refine ⟨(Nat.lcm e1.commonDen e2.commonDen / e1.commonDen : ℕ) * x -
        (Nat.lcm e1.commonDen e2.commonDen / e2.commonDen : ℕ) * y, ?_⟩
      simp only [Expr.eval, h1, h2, bind_def, Res.bind, Fraction.arith_self, Ops.arith, Safe.arith,
        Safe.minusFF, l1, l2, l3, IntTy.mul, IntTy.sub, hw, pure_def, Expr.commonDen, Res.ok.injEq,
        Raw.mk.injEq, and_true, exists_and_left, exists_and_right, exists_eq']
      refine ⟨?_, ?_⟩
      · apply emod_eq_of_zmod
        push_cast [zmod_emod]
        ring
      · simp only [Expr.value, v1, v2, Option.bind_some, ArithOp.value, Option.some.injEq]
        have r1 := Nat.cast_div (K := ℚ) (Nat.dvd_lcm_left e1.commonDen e2.commonDen) q1
        have r2 := Nat.cast_div (K := ℚ) (Nat.dvd_lcm_right e1.commonDen e2.commonDen) q2
        have q3 : ((Nat.lcm e1.commonDen e2.commonDen : ℕ) : ℚ) ≠ 0 := by
          have := Nat.lcm_pos p1 p2
          positivity
        rw [Int.cast_sub, Int.cast_mul, Int.cast_mul, Int.cast_natCast, Int.cast_natCast, r1, r2]
        field_simp
    · refine ⟨x * y, ?_⟩
      have hD : (e1.commonDen * e2.commonDen : ℤ) % 2 ^ T.bits = e1.commonDen * e2.commonDen := by
        have := IntTy.InRange.residue hs hd
        simpa [Expr.commonDen] using this
      simp only [Expr.eval, h1, h2, bind_def, Res.bind, Fraction.arith_self, Ops.arith, Safe.arith,
        Safe.multipliesFF, IntTy.mul, hw, pure_def, Expr.commonDen, Res.ok.injEq,
        Raw.mk.injEq, and_true, exists_and_left, exists_and_right, exists_eq', hD]
      refine ⟨⟨?_, ?_⟩, ?_⟩
      · apply emod_eq_of_zmod
        push_cast [zmod_emod]
        ring
      · push_cast; rfl
      · simp only [Expr.value, v1, v2, Option.bind_some, ArithOp.value, Option.some.injEq]
        push_cast
        field_simp
  | fr op e n ih =>
    have p1 := Expr.commonDen_pos he.2
    have d1 : T.InRange e.commonDen := by
      rcases he.1 with rfl | rfl | rfl | ⟨rfl, hn⟩
      · exact hd
      · exact hd
      · exact hd
      · exact InRange.of_dvd hs (Nat.dvd_mul_right _ _) (Nat.mul_pos p1 (by omega)) hd
    obtain ⟨x, w1, h1, v1⟩ := ih he.2 hl.1 d1
    have q1 := hpos he.2
    rcases he.1 with rfl | rfl | rfl | ⟨rfl, hn⟩
    · refine ⟨x + n * e.commonDen, ?_⟩
      simp only [Expr.eval, h1, bind_def, Res.bind, Fraction.arith_self, Ops.arith, Safe.arith,
        Safe.plusFR, IntTy.mul, IntTy.add, hw, pure_def, Expr.commonDen, Res.ok.injEq,
        Raw.mk.injEq, and_true, exists_and_left, exists_and_right, exists_eq']
      refine ⟨?_, ?_⟩
      · apply emod_eq_of_zmod
        push_cast [zmod_emod]
        ring
      · simp only [Expr.value, v1, Option.bind_some, ArithOp.value, Option.some.injEq]
        push_cast
        field_simp
    · refine ⟨x - n * e.commonDen, ?_⟩
      simp only [Expr.eval, h1, bind_def, Res.bind, Fraction.arith_self, Ops.arith, Safe.arith,
        Safe.minusFR, IntTy.mul, IntTy.sub, hw, pure_def, Expr.commonDen, Res.ok.injEq,
        Raw.mk.injEq, and_true, exists_and_left, exists_and_right, exists_eq']
      refine ⟨?_, ?_⟩
      · apply emod_eq_of_zmod
        push_cast [zmod_emod]
        ring
      · simp only [Expr.value, v1, Option.bind_some, ArithOp.value, Option.some.injEq]
        push_cast
        field_simp
    · refine ⟨x * n, ?_⟩
      simp only [Expr.eval, h1, bind_def, Res.bind, Fraction.arith_self, Ops.arith, Safe.arith,
        Safe.multipliesFR, IntTy.mul, hw, pure_def, Expr.commonDen, Res.ok.injEq,
        Raw.mk.injEq, and_true, exists_and_left, exists_and_right, exists_eq']
      refine ⟨?_, ?_⟩
      · apply emod_eq_of_zmod
        push_cast [zmod_emod]
        ring
      · simp only [Expr.value, v1, Option.bind_some, ArithOp.value, Option.some.injEq]
        push_cast
        field_simp
    · refine ⟨x, ?_⟩
      have en : (n.natAbs : ℤ) = n := by omega
      have hD : (e.commonDen * n : ℤ) % 2 ^ T.bits = e.commonDen * n := by
        have := IntTy.InRange.residue hs hd
        simp only [Expr.commonDen] at this
        push_cast [en] at this
        exact this
      simp only [Expr.eval, h1, bind_def, Res.bind, Fraction.arith_self, Ops.arith, Safe.arith,
        Safe.dividesFR, IntTy.mul, hw, pure_def, Expr.commonDen, Res.ok.injEq,
        Raw.mk.injEq, and_true, exists_and_left, exists_and_right, exists_eq', hD]
      refine ⟨⟨trivial, ?_⟩, ?_⟩
      · push_cast; rw [abs_of_pos hn]
      · have hn' : (n : ℚ) ≠ 0 := by exact_mod_cast hn.ne'
        have en' : (n.natAbs : ℚ) = n := by rw [← Int.cast_natCast, en]
        simp only [Expr.value, v1, Option.bind_some, ArithOp.value, if_neg hn', Option.some.injEq]
        push_cast [en']
        field_simp
  | rf op n e ih =>
    obtain ⟨x, w1, h1, v1⟩ := ih he.2 hl.2 hd
    have q1 := hpos he.2
    rcases he.1 with rfl | rfl | rfl
    · refine ⟨n * e.commonDen + x, ?_⟩
      simp only [Expr.eval, h1, bind_def, Res.bind, Fraction.arith_self, Ops.arith, Safe.arith,
        Safe.plusRF, Safe.plusFR, IntTy.mul, IntTy.add, hw, pure_def, Expr.commonDen, Res.ok.injEq,
        Raw.mk.injEq, and_true, exists_and_left, exists_and_right, exists_eq']
      refine ⟨?_, ?_⟩
      · apply emod_eq_of_zmod
        push_cast [zmod_emod]
        ring
      · simp only [Expr.value, v1, Option.bind_some, ArithOp.value, Option.some.injEq]
        push_cast
        field_simp
    · refine ⟨n * e.commonDen - x, ?_⟩
      simp only [Expr.eval, h1, bind_def, Res.bind, Fraction.arith_self, Ops.arith, Safe.arith,
        Safe.minusRF, IntTy.mul, IntTy.sub, hw, pure_def, Expr.commonDen, Res.ok.injEq,
        Raw.mk.injEq, and_true, exists_and_left, exists_and_right, exists_eq']
      refine ⟨?_, ?_⟩
      · apply emod_eq_of_zmod
        push_cast [zmod_emod]
        ring
      · simp only [Expr.value, v1, Option.bind_some, ArithOp.value, Option.some.injEq]
        push_cast
        field_simp
    · refine ⟨n * x, ?_⟩
      simp only [Expr.eval, h1, bind_def, Res.bind, Fraction.arith_self, Ops.arith, Safe.arith,
        Safe.multipliesRF, Safe.multipliesFR, IntTy.mul, hw, pure_def, Expr.commonDen, Res.ok.injEq,
        Raw.mk.injEq, and_true, exists_and_left, exists_and_right, exists_eq']
      refine ⟨?_, ?_⟩
      · apply emod_eq_of_zmod
        push_cast [zmod_emod]
        ring
      · simp only [Expr.value, v1, Option.bind_some, ArithOp.value, Option.some.injEq]
        push_cast
        field_simp

end Ieme
