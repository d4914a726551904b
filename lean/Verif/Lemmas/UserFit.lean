import Verif.Lemmas.UserTypes
import Verif.Props.Parts
import Verif.Props.CommonDen
import Verif.Props.Bounds
import Verif.Spec.UserFit

/-!
# Lemmas about when code of users finishes
-/

namespace Ieme.User

open Header Res

set_option maxRecDepth 100000

variable {o : Ops} {tys : Types} {n : ℕ} {ents : List (ℕ × Val)}

/-- Products under `safe` and `fast`. -/
theorem multiplies_iff {T : IntTy} {p b s : Raw} (ho : o = .safe ∨ o = .fast) (hp : p.InRange T)
    (hb : b.InRange T) : Fraction.assignF T T o .multiplies p b ⇓ s ↔
      (Raw.InRange T ⟨p.num * b.num, p.den * b.den⟩) ∧ s = ⟨p.num * b.num, p.den * b.den⟩ := by
  have h : o.arith T .multiplies (.ff p b) = Ops.fast.arith T .multiplies (.ff p b) := by
    rcases ho with rfl | rfl
    · exact C85_safe_eq_fast (.inl (by simp [ArithOp.UsesCommon]))
    · rfl
  have hi : (Args.ff p b).InRange T := ⟨hp, hb⟩
  rw [Fraction.assignF, if_pos rfl, Fraction.arith_self, h, C85_fast_iff hi]
  simp only [ArithOp.crossParts, Args.left, Args.right, ArithOp.UsesCommon, reduceCtorEq,
    false_implies, and_true]
  constructor
  · rintro ⟨rfl, h⟩; exact ⟨h, rfl⟩
  · rintro ⟨h, rfl⟩; exact ⟨rfl, h⟩

/-- The denominators of sums under `fast`. -/
theorem plus_fast_den {T : IntTy} {p b s : Raw} (hp : p.InRange T) (hb : b.InRange T)
    (h : Fraction.assignF T T .fast .plus p b ⇓ s) : s.den = p.den * b.den ∧ s.InRange T := by
  have hi : (Args.ff p b).InRange T := ⟨hp, hb⟩
  rw [Fraction.assignF, if_pos rfl, Fraction.arith_self, C85_fast_iff hi] at h
  obtain ⟨rfl, h, _⟩ := h
  exact ⟨rfl, h⟩

/-- The test of the loops. -/
theorem loop_test {k : ℕ} {c : ℤ} (hk : ents.lookup k = some (.int i32 c)) :
    userEval n tys ents (.bin .ne (.var 0 k) (.num 0)) = .ok (.bool (decide (c ≠ 0))) false := by
  have h1 : evalVar (userEnv tys ents) 0 k = some (.int i32 c) := by
    simp [evalVar, userEnv, hk]
  simp [userEval, eval, h1, orIll, binary, toTy, arithInt, IntTy.common_self, pure_eq_ok]

/-- Sums over one denominator under `safe`. -/
theorem plus_iff {T : IntTy} {x y d : ℤ} {s : Raw} (hd : 0 < d) (hx : T.InRange x) (hy : T.InRange y)
    (hT : T.InRange d) : Fraction.assignF T T .safe .plus ⟨x, d⟩ ⟨y, d⟩ ⇓ s ↔
      T.InRange (x + y) ∧ s = ⟨x + y, d⟩ := by
  have hl : ((Int.lcm d d : ℕ) : ℤ) = d := by
    rw [Int.lcm_self, Int.natCast_natAbs, abs_of_pos hd]
  rw [Fraction.assignF, if_pos rfl, Fraction.arith_self,
    C85_safe_iff (op := .plus) (l := ⟨x, d⟩) (r := ⟨y, d⟩) trivial ⟨hx, hT⟩ ⟨hy, hT⟩]
  cases s with | mk a c => ?_
  simp only [hl, reduceCtorEq, false_implies, and_true, Raw.mk.injEq, Raw.InRange, ArithOp.overCommon]
  constructor
  · rintro ⟨_, _, rfl, ⟨h1, _⟩, p, q, hp, hq, _, _, rfl⟩
    obtain rfl := mul_right_cancel₀ hd.ne' hp
    obtain rfl := mul_right_cancel₀ hd.ne' hq
    exact ⟨h1, rfl, rfl⟩
  · rintro ⟨h, rfl, rfl⟩
    exact ⟨hd.ne', hd.ne', rfl, ⟨h, hT⟩, x, y, rfl, rfl, hx, hy, rfl⟩

/-- One round of the loops. -/
theorem loop_round {op : BinOp} {aop : ArithOp} (hop : arithOf op = some aop) {product base k : ℕ} (hpk : product ≠ k) (hn : policyDepth o ≤ n) {T : IntTy}
    {p b : Raw} {c : ℕ} (hk : ents.lookup k = some (.int i32 (c + 1 : ℕ)))
    (hp : ents.lookup product = some (.frac T o p)) (hb : ents.lookup base = some (.frac T o b))
    (hc : ((c + 1 : ℕ) : ℤ) ≤ i32.max) :
    userExec n tys ents (.update product op (.var 0 base) (.update k .sub (.num 1) .nil)) =
      (Fraction.assignF T T o aop p b >>= fun s =>
        pure (.next ((k, .int i32 c) :: (product, .frac T o s) :: ents))) := by
  have hd := policyDepth_eq o
  have h1 : evalVar ⟨.global, tys, ents⟩ 0 base = some (.frac T o b) := by
    simp [evalVar, hb]
  have hsub : i32.sub ((c + 1 : ℕ) : ℤ) (1 : ℕ) = pure (c : ℤ) := by
    have : i32.sub ((c + 1 : ℕ) : ℤ) (1 : ℕ) ⇓ (c : ℤ) := by
      refine IntTy.sub_clean.2 ⟨?_, by push_cast; ring⟩
      have h1 : i32.max = 2147483647 := by decide
      have h2 : i32.min = -2147483648 := by decide
      constructor <;> push_cast <;> omega
    exact this
  have h2 : ∀ s, (((product, Val.frac T o s) :: ents).lookup k) = some (.int i32 (c + 1 : ℕ)) := by
    intro s
    rwa [lookup_ne hpk.symm]
  unfold userExec
  rw [show userEnv tys ents = ⟨.global, tys, ents⟩ from rfl, exec_update]
  simp only [seq, eval_var, h1, orIll, pure_bind, hp, Header.updated]
  rw [assignF_text hop T T p b (by omega), map_eq_pure_bind, bind_assoc]
  congr 1
  funext s
  rw [pure_bind, exec_update]
  simp only [seq, eval_num, pure_bind, h2, orIll, Header.updated, binary, toTy, IntTy.common_self,
    reduceCtorEq, if_false, if_true, arithInt, hsub, map_pure, construct, exec]

/-- Quotients and remainders of numbers whose absolute values are representable. -/
theorem tdiv_tmod_fit {T : IntTy} {x y : ℤ} (hx : T.InRange x) (hx' : |x| ≤ T.max)
    (hy : T.InRange y) :
    T.InRange (x.tdiv y) ∧ T.InRange (x.tmod y) ∧ |x.tmod y| ≤ T.max := by
  have hq : |x.tdiv y| ≤ |x| := by
    rw [Int.abs_eq_natAbs, Int.abs_eq_natAbs, Int.natAbs_tdiv]
    exact_mod_cast Nat.div_le_self _ _
  have hm : |x.tmod y| ≤ |x| := by
    rw [Int.abs_eq_natAbs, Int.abs_eq_natAbs, Int.natAbs_tmod]
    exact_mod_cast Nat.mod_le _ _
  have key : ∀ z : ℤ, |z| ≤ |x| → (T.signed = false → 0 ≤ z) → T.InRange z := by
    intro z hz h0
    have h1 := (abs_le.1 (hz.trans hx')).1
    have h2 := (abs_le.1 (hz.trans hx')).2
    refine ⟨?_, h2⟩
    cases hs : T.signed with
    | true => rw [IntTy.min_signed hs]; omega
    | false => rw [IntTy.min_unsigned hs]; exact h0 hs
  have hpos : T.signed = false → 0 ≤ x ∧ 0 ≤ y := by
    intro hs
    have h1 := hx.1
    have h2 := hy.1
    rw [IntTy.min_unsigned hs] at h1 h2
    exact ⟨h1, h2⟩
  exact ⟨key _ hq fun hs => Int.tdiv_nonneg (hpos hs).1 (hpos hs).2,
    key _ hm fun hs => Int.tmod_nonneg _ (hpos hs).1, hm.trans hx'⟩

/-- Remainders over one denominator under `safe`. -/
theorem modulus_ok {T : IntTy} {x y d : ℤ} (hd : 0 < d) (hx : T.InRange x) (hx' : |x| ≤ T.max)
    (hy : T.InRange y) (hy0 : y ≠ 0) (hT : T.InRange d) :
    Ops.safe.arith T .modulus (.ff ⟨x, d⟩ ⟨y, d⟩) ⇓ ⟨x.tmod y, d⟩ := by
  have hl : ((Int.lcm d d : ℕ) : ℤ) = d := by
    rw [Int.lcm_self, Int.natCast_natAbs, abs_of_pos hd]
  obtain ⟨h1, h2, -⟩ := tdiv_tmod_fit hx hx' hy
  rw [C85_safe_iff (op := .modulus) (l := ⟨x, d⟩) (r := ⟨y, d⟩) trivial ⟨hx, hT⟩ ⟨hy, hT⟩]
  exact ⟨hd.ne', hd.ne', hl.symm, ⟨h2, hT⟩, x, y, rfl, rfl, hx, hy, rfl, fun _ => ⟨hy0, h1⟩⟩

/-- The test of Euclid's algorithm. -/
theorem euclid_test {b : ℕ} (hz : tys.lookup N.«is_zero» = none) (hn : policyDepth o ≤ n) {T : IntTy}
    {r : Raw} (hb : ents.lookup b = some (.frac T o r)) :
    userEval n tys ents (.un .not (.call 0 N.«is_zero» [] (.cons (.var 0 b) .nil))) =
      .ok (.bool (!r.isZero)) false := by
  have hd := policyDepth_eq o
  have h1 : evalVar (userEnv tys ents) 0 b = some (.frac T o r) := by
    simp [evalVar, userEnv, hb]
  simp only [userEval, eval, evalArgs, evalTys, orIll, pure_bind, h1]
  rw [call_user hz, fraction_isZero_ok T o r (by omega)]
  rfl

/-- One round of Euclid's algorithm. -/
theorem euclid_round {a b rest : ℕ} (hab : a ≠ b) (har : a ≠ rest) (hbr : b ≠ rest)
    (hn : policyDepth o ≤ n) {T : IntTy} {p r : Raw} (ha : ents.lookup a = some (.frac T o p))
    (hb : ents.lookup b = some (.frac T o r)) :
    userExec n tys ents (.decl rest (.bin .mod (.var 0 a) (.var 0 b))
        (.assign a (.var 0 b) (.assign b (.var 0 rest) .nil))) =
      (o.arith T .modulus (.ff p r) >>= fun s => pure (.next ((b, .frac T o s) :: (a, .frac T o r) ::
        (rest, .frac T o s) :: ents))) := by
  have hd := policyDepth_eq o
  have h1 : evalVar ⟨.global, tys, ents⟩ 0 a = some (.frac T o p) := by simp [evalVar, ha]
  have h2 : evalVar ⟨.global, tys, ents⟩ 0 b = some (.frac T o r) := by simp [evalVar, hb]
  have htext := arith_text (o := o) (n := n) (op := .mod) (aop := .modulus) rfl T T (.ff p r) (by omega)
  rw [Fraction.arith_self, IntTy.common_self] at htext
  unfold userExec
  rw [show userEnv tys ents = ⟨.global, tys, ents⟩ from rfl, exec_decl]
  have hmod : eval library (invoke library n) ⟨.global, tys, ents⟩ (.bin .mod (.var 0 a) (.var 0 b)) =
      Val.frac T o <$> o.arith T .modulus (.ff p r) := by
    simp only [eval, h1, h2, orIll, pure_bind, binary]
    exact htext
  rw [hmod, seq, map_eq_pure_bind, bind_assoc]
  congr 1
  funext s
  have h3 : evalVar ⟨.global, tys, (rest, .frac T o s) :: ents⟩ 0 b = some (.frac T o r) := by
    simp [evalVar, lookup_ne hbr, hb]
  have h4 : evalVar ⟨.global, tys, (a, .frac T o r) :: (rest, .frac T o s) :: ents⟩ 0 rest =
      some (.frac T o s) := by
    simp [evalVar, lookup_ne har.symm]
  rw [pure_bind, exec_assign]
  simp only [seq, eval_var, h3, orIll, pure_bind, lookup_ne har, ha, Val.type, construct, if_true]
  rw [exec_assign]
  simp only [seq, eval_var, h4, orIll, pure_bind, lookup_ne hab.symm, lookup_ne hbr, hb, Val.type,
    construct, if_true, exec]

/-- The sum loop and the power loop are sequences of compound assignments. -/
theorem update_loop_iff {op : BinOp} {aop : ArithOp} (hop : arithOf op = some aop) {acc x k : ℕ}
    (hax : acc ≠ x) (hak : acc ≠ k) (hxk : x ≠ k) (hn : policyDepth o ≤ n) {T : IntTy} {p b s : Raw}
    {count : ℕ} (ha : ents.lookup acc = some (.frac T o p)) (hx : ents.lookup x = some (.frac T o b))
    (hk : ents.lookup k = some (.int i32 count)) (hc : (count : ℤ) ≤ i32.max) :
    (∃ ents', Runs n tys (.while (.bin .ne (.var 0 k) (.num 0))
        (.stmt (.update acc op (.var 0 x) (.update k .sub (.num 1) .nil)))) ents (.next ents') ∧
      ents'.lookup acc = some (.frac T o s)) ↔
    Assign.run T o p (List.replicate count (.frac aop b)) ⇓ s := by
  induction count generalizing ents p with
  | zero =>
    have hfalse : userEval n tys ents (.bin .ne (.var 0 k) (.num 0)) = .ok (.bool false) false := by
      rw [loop_test hk]; simp
    constructor
    · rintro ⟨ents', h, hl⟩
      cases h with
      | done h => rw [ha] at hl; cases hl; rfl
      | again h _ _ => rw [hfalse] at h; cases h
    · intro h
      cases h
      exact ⟨ents, .done hfalse, ha⟩
  | succ c ih =>
    have htrue : userEval n tys ents (.bin .ne (.var 0 k) (.num 0)) = .ok (.bool true) false := by
      rw [loop_test hk]; simp; omega
    have hround := loop_round (tys := tys) hop hak hn hk ha hx hc
    have step := fun t => ih (ents := (k, .int i32 c) :: (acc, .frac T o t) :: ents) (p := t)
      (by rw [lookup_ne hak, List.lookup_cons_self]) (by rwa [lookup_ne hxk, lookup_ne hax.symm])
      List.lookup_cons_self (by push_cast at hc; omega)
    rw [List.replicate_succ, Assign.run, bind_eq_clean]
    constructor
    · rintro ⟨ents', h, hl⟩
      cases h with
      | done h => rw [htrue] at h; cases h
      | again _ h hnext =>
        cases h with
        | stmt h =>
          rw [hround] at h
          obtain ⟨t, ht, h⟩ := bind_eq_clean.1 h
          cases pure_clean h
          exact ⟨t, ht, (step t).1 ⟨ents', hnext, hl⟩⟩
    · rintro ⟨t, ht, h⟩
      obtain ⟨ents', hnext, hl⟩ := (step t).2 h
      refine ⟨ents', .again htrue (.stmt ?_) hnext, hl⟩
      change Fraction.assignF T T o aop p b = .ok t false at ht
      rw [hround, ht]
      rfl

theorem arithOf_symbol (op : ArithOp) : arithOf (symbol op) = some op := by cases op <;> rfl

/-- Expressions in code of users are evaluated like those of the model. -/
theorem reads_eval (hn : policyDepth o ≤ n) {T : IntTy} {a : Header.Expr} {e : Ieme.Expr}
    (h : Reads T o ents a e) : userEval n tys ents a = Val.frac T o <$> e.eval T o := by
  have hd := policyDepth_eq o
  have var : ∀ {x v}, ents.lookup x = some v →
      eval library (invoke library n) (userEnv tys ents) (.var 0 x) = pure v := by
    intro x v hx
    have h1 : evalVar (userEnv tys ents) 0 x = some v := by simp [evalVar, userEnv, hx]
    simp only [eval, h1, orIll]
  have text := fun (op : ArithOp) (as : Ieme.Args) =>
    arith_text (o := o) (n := n) (arithOf_symbol op) T T as (by omega)
  simp only [IntTy.common_self] at text
  have bin : ∀ (op : ArithOp) (a b : Header.Expr),
      eval library (invoke library n) (userEnv tys ents) (.bin (symbol op) a b) =
        (eval library (invoke library n) (userEnv tys ents) a >>= fun x =>
          eval library (invoke library n) (userEnv tys ents) b >>= fun y =>
            binary (invoke library n) (symbol op) x y) := by
    intro op a b
    cases op <;> simp only [symbol, eval]
  unfold userEval
  induction h with
  | var hx => rw [var hx]; rfl
  | neg _ ih =>
    simp only [eval, ih, Expr.eval, map_eq_pure_bind, bind_assoc, pure_bind, Fraction.neg]
    congr 1
    funext v
    exact (fraction_neg_ok T o v (by omega)).trans (map_eq_pure_bind _ _)
  | pos _ ih =>
    simp only [eval, ih, Expr.eval, map_eq_pure_bind, bind_assoc, pure_bind, Fraction.pos]
    congr 1
    funext v
    exact fraction_pos_ok T o v (by omega)
  | @ff op a b e1 e2 _ _ ih1 ih2 =>
    rw [bin, ih1, ih2]
    simp only [Expr.eval, map_eq_pure_bind, bind_assoc, pure_bind]
    congr 1
    funext v
    congr 1
    funext w
    exact (text op (.ff v w)).trans (map_eq_pure_bind _ _)
  | @fr op a y e m _ hy ih =>
    rw [bin, ih, var hy]
    simp only [Expr.eval, map_eq_pure_bind, bind_assoc, pure_bind]
    congr 1
    funext v
    exact (text op (.fr v m)).trans (map_eq_pure_bind _ _)
  | @rf op y b e m hy _ ih =>
    rw [bin, ih, var hy]
    simp only [Expr.eval, map_eq_pure_bind, bind_assoc, pure_bind]
    congr 1
    funext v
    exact (text op (.rf m v)).trans (map_eq_pure_bind _ _)
  | @frNum op a e k hT _ ih =>
    rw [bin, ih, show eval library (invoke library n) (userEnv tys ents) (.num k) = pure (.int T k) by
      rw [hT, eval_num]]
    simp only [Expr.eval, map_eq_pure_bind, bind_assoc, pure_bind]
    congr 1
    funext v
    exact (text op (.fr v k)).trans (map_eq_pure_bind _ _)
  | @rfNum op b e k hT _ ih =>
    rw [bin, ih, show eval library (invoke library n) (userEnv tys ents) (.num k) = pure (.int T k) by
      rw [hT, eval_num]]
    simp only [Expr.eval, map_eq_pure_bind, bind_assoc, pure_bind]
    congr 1
    funext v
    exact (text op (.rf k v)).trans (map_eq_pure_bind _ _)

end Ieme.User
