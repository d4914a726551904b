import Verif.Lemmas.TypedWiden

/-!
# Lemmas about typed programs in wide types
-/

namespace Ieme.Overload

open Res IntTy

variable {l r t t' : Ty} {u v w : Val} {op : ArithOp} {Γ : Decls} {m : Vars} {s : ℕ → ℚ} {x y q : ℚ}

/-- The value is of the kind of the type, and a literal can be negated. -/
def Val.Like : Val → Ty → Prop
  | .int _, .int _ => True
  | .frac _, .frac _ _ => True
  | .mixed _, .mixed _ _ _ => True
  | .lit n, .lit _ _ => n.natAbs ≤ 9223372036854775807
  | _, _ => False

theorem like_neg_retype {φ : IntTy → IntTy} : u.Like (t.retype φ) ↔ u.Like t := by
  cases t <;> cases u <;> rfl

theorem binValue_retype (φ : IntTy → IntTy) : binValue op (l.retype φ) (r.retype φ) x y = binValue op l r x y := by
  cases op <;> cases l <;> cases r <;> rfl

/-- One type for everything. -/
abbrev only (T : IntTy) : IntTy → IntTy := fun _ => T

theorem settles_sub (a b : ℤ) : Settles (fun T => T.sub a b) (a - b) :=
  .of_max (a - b).natAbs fun _ hs h => sub_clean.2 ⟨inRange_of_natAbs hs h, rfl⟩

theorem settles_mul (a b : ℤ) : Settles (fun T => T.mul a b) (a * b) :=
  .of_max (a * b).natAbs fun _ hs h => mul_clean.2 ⟨inRange_of_natAbs hs h, rfl⟩

theorem settles_div (a : ℤ) {b : ℤ} (hb : b ≠ 0) : Settles (fun T => T.div a b) (a.tdiv b) :=
  .of_max (a.tdiv b).natAbs fun _ hs h => div_clean.2 ⟨hb, inRange_of_natAbs hs h, rfl⟩

theorem settles_mod (a : ℤ) {b : ℤ} (hb : b ≠ 0) : Settles (fun T => T.mod a b) (a.tmod b) :=
  .of_max (a.tdiv b).natAbs fun _ hs h => mod_clean.2 ⟨hb, inRange_of_natAbs hs h, rfl⟩

theorem settles_builtin (op : ArithOp) (a : ℤ) {b : ℤ}
    (hb : op = .divides ∨ op = .modulus → b ≠ 0) :
    ∃ k, Settles (fun T => builtin T T op a b) k := by
  simp only [builtin, IntTy.common_self]
  cases op
  · exact ⟨_, .bind (.conv a) (.bind (.conv b) (.add a b))⟩
  · exact ⟨_, .bind (.conv a) (.bind (.conv b) (settles_sub a b))⟩
  · exact ⟨_, .bind (.conv a) (.bind (.conv b) (settles_mul a b))⟩
  · exact ⟨_, .bind (.conv a) (.bind (.conv b) (settles_div a (hb (.inl rfl))))⟩
  · exact ⟨_, .bind (.conv a) (.bind (.conv b) (settles_mod a (hb (.inr rfl))))⟩

theorem settles_map {α β : Type} {f : IntTy → Res α} {v : α} (k : α → β) (h : Settles f v) :
    Settles (fun T => do return k (← f T)) (k v) := .bind h (.pure _)

theorem settles_negate (hu : u.Like t) (hx : u.Denotes x) :
    ∃ v, Settles (fun T => negate (t.retype (only T)) u) v ∧ v.Like t.neg := by
  cases t <;> cases u <;> first | exact absurd hu id | skip
  · exact ⟨_, .bind (.neg _) (.pure _), trivial⟩
  · obtain ⟨g, hg, -⟩ := Settles.negate _ hx
    exact ⟨_, .bind hg (.pure _), trivial⟩
  · obtain ⟨g, hg, -⟩ := Settles.mixedNeg _ hx
    exact ⟨_, .bind hg (.pure _), trivial⟩
  · rename_i s o n
    have hn : n.natAbs ≤ 9223372036854775807 := hu
    refine ⟨.lit (-n), ⟨0, fun T _ _ => ?_⟩, by simpa [Val.Like, Ty.neg] using hn⟩
    have h1 : i64.conv n ⇓ n := conv_clean.2 ⟨by constructor <;> simp [i64, IntTy.min, IntTy.max] <;> omega, rfl⟩
    have h2 : i64.neg n ⇓ -n := neg_clean.2 ⟨by constructor <;> simp [i64, IntTy.min, IntTy.max] <;> omega, rfl⟩
    simp only [Ty.retype, negate, DenLit.neg, h1, h2, ok_bind_false]
    rfl

theorem divisor_ne (hq : binValue op l r x y = some q) :
    op = .divides ∨ op = .modulus → y ≠ 0 := by
  rintro (rfl | rfl) rfl
  · cases l <;> cases r <;> simp [binValue, ArithOp.value] at hq
  · cases l <;> cases r <;> simp [binValue, ArithOp.value] at hq

theorem settles_apply (hu : u.Like l) (hv : v.Like r) (hb : Ty.bin op l r = some t)
    (hx : u.Denotes x) (hy : v.Denotes y) (hq : binValue op l r x y = some q) :
    ∃ w, Settles (fun T => apply op (l.retype (only T)) (r.retype (only T)) u v) w ∧ w.Like t := by
  have h0 := divisor_ne hq
  rcases bin_some hb with ⟨A, B, rfl, rfl, rfl⟩ | h <;> clear hb
  · cases u <;> first | exact absurd hu id | skip
    cases v <;> first | exact absurd hv id | skip
    cases hy
    obtain ⟨k, hk⟩ := settles_builtin op _ (b := _) fun h => by exact_mod_cast h0 h
    exact ⟨.int k, .bind hk (.pure _), trivial⟩
  · have h1 : op = .modulus → y ≠ 0 := fun h => h0 (.inr h)
    unfold signature at h
    split at h
    all_goals (try split_ifs at h)
    all_goals (try cases h)
    all_goals
      cases u <;> first | exact absurd hu id | skip
    all_goals
      cases v <;> first | exact absurd hv id | skip
    · rename_i L o R o' he f f'
      subst he
      obtain ⟨g, hg, -⟩ := Settles.arith o op (a := .ff _ _) ⟨hx, hy⟩ h1
      exact ⟨.frac g, (settles_map Val.frac hg).congr fun T => by
        simp only [Ty.retype, apply, resolve_eq, if_true, call], trivial⟩
    · rename_i L o R f n
      obtain ⟨g, hg, -⟩ := Settles.arith o op (a := .fr _ _) ⟨hx, hy⟩ h1
      exact ⟨.frac g, (settles_map Val.frac hg).congr fun T => by
        simp only [Ty.retype, apply, resolve_eq, call], trivial⟩
    · rename_i L R o n f
      obtain ⟨g, hg, -⟩ := Settles.arith o op (a := .rf _ _) ⟨hx, hy⟩ h1
      exact ⟨.frac g, (settles_map Val.frac hg).congr fun T => by
        simp only [Ty.retype, apply, resolve_eq, call], trivial⟩
    · rename_i W F o W' F' o' he k k'
      subst he
      obtain ⟨g, hg, -⟩ := Settles.mixedAdd o hx hy
      exact ⟨.mixed g, (settles_map Val.mixed hg).congr fun T => by
        simp only [Ty.retype, apply, resolve_eq, if_true, call], trivial⟩
    · rename_i W F o R o' he k f
      subst he
      obtain ⟨g, hg, -⟩ := Settles.mixedAddFraction o hx hy
      exact ⟨.mixed g, (settles_map Val.mixed hg).congr fun T => by
        simp only [Ty.retype, apply, resolve_eq, if_true, call], trivial⟩
    · rename_i L o W F o' he f k
      subst he
      obtain ⟨g, hg, -⟩ := Settles.mixedAddFraction o hy hx
      exact ⟨.mixed g, (settles_map Val.mixed hg).congr fun T => by
        simp only [Ty.retype, apply, resolve_eq, if_true, call], trivial⟩
    · rename_i W F o R k n
      obtain ⟨g, hg, -⟩ := Settles.mixedAddWhole o n hx
      exact ⟨.mixed g, (settles_map Val.mixed hg).congr fun T => by
        simp only [Ty.retype, apply, resolve_eq, call], trivial⟩
    · rename_i L W F o n k
      obtain ⟨g, hg, -⟩ := Settles.mixedAddWhole o n hy
      exact ⟨.mixed g, (settles_map Val.mixed hg).congr fun T => by
        simp only [Ty.retype, apply, resolve_eq, call], trivial⟩
    · rename_i T o s o' he f n
      subst he
      obtain ⟨g, hg, -⟩ := Settles.arith o .divides (a := .fr _ _) ⟨hx, hy⟩ h1
      exact ⟨.frac g, (settles_map Val.frac (.bind (g := fun T d =>
        Fraction.arith T T o .divides (.fr f d)) (.conv n) hg)).congr fun T => by
        simp only [Ty.retype, apply, resolve_eq, if_true, call, DenLit.divFraction], trivial⟩
    · rename_i T s o n n'
      exact ⟨.frac ⟨n, n'⟩, (settles_map Val.frac
        (.bind (g := fun _ d => Pure.pure (Fraction.mk n d)) (.conv n') (.pure _))).congr fun T => by
        simp only [Ty.retype, apply, resolve_eq, call, DenLit.divRep], trivial⟩

/-- An expression settles. -/
theorem settles_inst (hm : m.Holds s) (hl : ∀ x, (m x).Like (Γ x)) :
    ∀ (e : VExpr) {t : Ty} {q : ℚ}, e.ty Γ = some t → e.value Γ s = some q → e.Objects →
      e.SmallLiterals → e.Proper →
      ∃ v, Settles (fun T => ((e.retype (only T)).inst (Γ.retype (only T)) m).eval) v ∧
        v.Like t ∧ v.Denotes q ∧ v.Proper
  | .var x, t, q, ht, hq, _, _, _ => by
    cases ht; cases hq
    exact ⟨m x, .pure _, hl x, hm x⟩
  | .obj t' u, t, q, ht, hq, ho, hs, hp => by
    cases ht
    refine ⟨u, .pure _, ?_, value_denotes hq, hp⟩
    cases t' <;> cases u <;> first | exact absurd ho id | trivial
  | .pos e, t, q, ht, hq, ho, hs, hp => settles_inst hm hl e ht hq ho hs hp
  | .neg e, t, q, ht, hq, ho, hs, hp => by
    obtain ⟨t', ht', rfl⟩ := Option.map_eq_some_iff.1 ht
    obtain ⟨x, hx, rfl⟩ := Option.map_eq_some_iff.1 hq
    obtain ⟨u, hu, hul, hud, -⟩ := settles_inst hm hl e ht' hx ho hs hp
    obtain ⟨v, hv⟩ := settles_negate hul hud
    have := (Settles.map (P := fun v => v.Like t'.neg) ⟨v, hv⟩
      (Q := fun v => v.Like t'.neg ∧ v.Denotes (-x) ∧ v.Proper)
      fun v T _ hv hl => ⟨hl, negate_exact hv hud, negate_proper hv⟩)
    obtain ⟨v, hv, hvl⟩ := this
    refine ⟨v, (Settles.bind hu hv).congr fun T => ?_, hvl⟩
    simp only [VExpr.retype, VExpr.inst, TExpr.eval, inst_ty, ty_retype (.const T), ht', Option.map_some]
  | .bin op e1 e2, t, q, ht, hq, ho, hs, hp => by
    obtain ⟨a, ha, ht⟩ := Option.bind_eq_some_iff.1 ht
    obtain ⟨b, hb, ht⟩ := Option.bind_eq_some_iff.1 ht
    simp only [VExpr.value, ha, hb, Option.bind_eq_some_iff] at hq
    obtain ⟨x, hx, y, hy, hq⟩ := hq
    obtain ⟨u, hu, hul, hud, -⟩ := settles_inst hm hl e1 ha hx ho.1 hs.1 hp.1
    obtain ⟨u', hu', hul', hud', -⟩ := settles_inst hm hl e2 hb hy ho.2 hs.2 hp.2
    obtain ⟨v, hv⟩ := settles_apply hul hul' ht hud hud' hq
    have := (Settles.map (P := fun v => v.Like t) ⟨v, hv⟩
      (Q := fun v => v.Like t ∧ v.Denotes q ∧ v.Proper)
      fun v T _ hv hl => ⟨hl, apply_exact hv hud hud' ((binValue_retype _).trans hq), apply_proper hv⟩)
    obtain ⟨v, hv, hvl⟩ := this
    refine ⟨v, (Settles.bind (g := fun T u =>
      ((e2.retype (only T)).inst (Γ.retype (only T)) m).eval >>=
        apply op (a.retype (only T)) (b.retype (only T)) u) hu (Settles.bind hu' hv)).congr
          fun T => ?_, hvl⟩
    simp only [VExpr.retype, VExpr.inst, TExpr.eval, inst_ty, ty_retype (.const T), ha, hb,
      Option.map_some]

theorem settles_convert (hc : l.converts r = true) (hn : ∀ s o, r ≠ .lit s o) (hu : u.Like l)
    (hx : u.Denotes x) (hp : u.Proper) :
    ∃ v, Settles (fun T => convert (l.retype (only T)) (r.retype (only T)) u) v ∧ v.Like r ∧
      v.Denotes x ∧ v.Proper := by
  suffices h : ∃ v, Settles (fun T => convert (l.retype (only T)) (r.retype (only T)) u) v ∧ v.Like r from
    h.imp fun v h => (by
      obtain ⟨⟨N, hN⟩, hl⟩ := h
      exact ⟨⟨N, hN⟩, hl, convert_exact (hN ⟨true, max N 32, le_max_right _ _⟩ rfl (le_max_left _ _))
        ⟨hx, hp⟩⟩)
  cases l <;> cases u <;> first | exact absurd hu id | skip
  all_goals cases r <;> simp only [Ty.converts, decide_eq_true_eq, Bool.false_eq_true] at hc
  all_goals first | exact absurd rfl (hn _ _) | skip
  · exact ⟨_, .bind (.conv _) (.pure _), trivial⟩
  · exact ⟨_, .bind (.conv _) (.pure _), trivial⟩
  · obtain ⟨g, hg, -⟩ := Settles.mixedMk _ _ (f := Fraction.default) (x := 0)
      (by norm_num [Fraction.default, Denotes])
    exact ⟨_, .bind (.conv _) (.bind hg (.pure _)), trivial⟩
  · rename_i S o f T o'
    subst hc
    exact ⟨.frac f, (Settles.pure (Val.frac f)).congr fun T => by
      simp only [Ty.retype, convert, if_true], trivial⟩
  · rename_i S o f W F o'
    subst hc
    obtain ⟨g, hg, -⟩ := Settles.mixedOfFraction o hx
    exact ⟨.mixed g, (settles_map Val.mixed hg).congr fun T => by
      simp only [Ty.retype, convert, if_true], trivial⟩
  · rename_i W F o k T o'
    obtain ⟨-, rfl⟩ := hc
    obtain ⟨g, hg, -⟩ := Settles.mixedAsFraction o hx
    exact ⟨.frac g, (settles_map Val.frac hg).congr fun T => by
      simp only [Ty.retype, convert, IntTy.common_self, and_self, if_true], trivial⟩
  · rename_i W F o k W' F' o'
    obtain ⟨-, -, rfl⟩ := hc
    exact ⟨.mixed k, (Settles.pure (Val.mixed k)).congr fun T => by
      simp only [Ty.retype, convert, and_self, if_true], trivial⟩

theorem settles_compound (hc : l.compounds r = true) (hu : u.Like l) (hv : v.Like r)
    (hx : u.Denotes x) (hy : v.Denotes y) (hq : binValue op l r x y = some q) :
    ∃ w, Settles (fun T => compoundAssign op (l.retype (only T)) (r.retype (only T)) u v) w ∧
      w.Like l ∧ w.Denotes q ∧ w.Proper := by
  suffices h : ∃ w, Settles (fun T => compoundAssign op (l.retype (only T)) (r.retype (only T)) u v) w ∧
      w.Like l from
    h.imp fun w h => (by
      obtain ⟨⟨N, hN⟩, hl⟩ := h
      exact ⟨⟨N, hN⟩, hl, compoundAssign_exact
        (hN ⟨true, max N 32, le_max_right _ _⟩ rfl (le_max_left _ _)) hx hy
          ((binValue_retype _).trans hq)⟩)
  have h0 := divisor_ne hq
  have h1 : op = .modulus → y ≠ 0 := fun h => h0 (.inr h)
  cases l <;> cases u <;> first | exact absurd hu id | skip
  all_goals cases r <;> cases v <;> first | exact absurd hv id | skip
  all_goals simp only [Ty.compounds, resolveAssign_eq, Bool.false_eq_true] at hc
  · cases hy
    obtain ⟨k, hk⟩ := settles_builtin op _ (b := _) fun h => by exact_mod_cast h0 h
    exact ⟨.int k, .bind hk (.bind (.conv k) (.pure _)), trivial⟩
  · rename_i L o f R n
    obtain ⟨g, hg, -⟩ := Settles.arith o op (a := .fr _ _) ⟨hx, hy⟩ h1
    exact ⟨.frac g, (settles_map Val.frac hg).congr fun T => by
      simp only [Ty.retype, compoundAssign, resolveAssign_eq, Fraction.assignR, if_true], trivial⟩
  · rename_i L o f R o' f'
    split_ifs at hc with ho
    · subst ho
      obtain ⟨g, hg, -⟩ := Settles.arith o op (a := .ff _ _) ⟨hx, hy⟩ h1
      exact ⟨.frac g, (settles_map Val.frac hg).congr fun T => by
        simp only [Ty.retype, compoundAssign, resolveAssign_eq, Fraction.assignF, if_true], trivial⟩

theorem settles_compares (op : CmpOp) (hc : l.compares r = true) (hu : u.Like l) (hv : v.Like r) :
    ∃ b, Settles (fun T => compare op (l.retype (only T)) (r.retype (only T)) u v) b := by
  cases l <;> cases u <;> first | exact absurd hu id | skip
  all_goals cases r <;> cases v <;> first | exact absurd hv id | skip
  all_goals simp only [Ty.compares, resolveCmp_eq, Bool.false_eq_true] at hc
  · rename_i A a B b
    exact ⟨builtinCmp op a b, (Settles.bind (g := fun T a' => do
        let b' ← T.conv b
        return builtinCmp op a' b') (.conv a) (settles_map (builtinCmp op a) (.conv b))).congr
      fun T => by simp only [Ty.retype, compare, IntTy.common_self]⟩
  · rename_i A n B o f
    obtain ⟨g, hg, -⟩ := Settles.cmp o op (.rf n f)
    exact ⟨g, hg.congr fun T => by simp only [Ty.retype, compare, resolveCmp_eq]⟩
  · rename_i A o f B n
    obtain ⟨g, hg, -⟩ := Settles.cmp o op (.fr f n)
    exact ⟨g, hg.congr fun T => by simp only [Ty.retype, compare, resolveCmp_eq]⟩
  · rename_i A o f B o' f'
    split_ifs at hc with ho
    · subst ho
      obtain ⟨g, hg, -⟩ := Settles.cmp o op (.ff f f')
      exact ⟨g, hg.congr fun T => by simp only [Ty.retype, compare, resolveCmp_eq, if_true]⟩

theorem settles_compare {op : CmpOp} (hc : l.compares r = true) (hr : Reliable op (some l) (some r))
    (hu : u.Like l) (hv : v.Like r) (hx : u.Denotes x) (hy : v.Denotes y) :
    ∃ b, Settles (fun T => compare op (l.retype (only T)) (r.retype (only T)) u v) b ∧
      (b = true ↔ op.Holds x y) := by
  obtain ⟨w, N, hN⟩ := settles_compares op hc hu hv
  refine ⟨w, ⟨N, hN⟩, compare_exact
    (hN ⟨true, max N 32, le_max_right _ _⟩ rfl (le_max_left _ _)) ?_ hx hy⟩
  revert hr
  cases l <;> cases r <;> exact id

theorem settles_call {f : Call} (hc : f.ty t = some t') (hu : u.Like t) (hx : u.Denotes x)
    (hp : u.Proper) (hq : f.value x = some q) :
    ∃ v, Settles (fun T => f.run (t.retype (only T)) u) v ∧ v.Like t' ∧ v.Denotes q ∧ v.Proper := by
  suffices h : ∃ v, Settles (fun T => f.run (t.retype (only T)) u) v ∧ v.Like t' from
    h.imp fun v h => (by
      obtain ⟨⟨N, hN⟩, hl⟩ := h
      exact ⟨⟨N, hN⟩, hl, callRun_exact (hN ⟨true, max N 32, le_max_right _ _⟩ rfl (le_max_left _ _))
        ⟨hx, hp⟩ hq⟩)
  cases f <;> cases t <;> simp only [Call.ty, reduceCtorEq, Option.some.injEq] at hc <;>
    cases u <;> first | exact absurd hu id | skip
  all_goals subst hc
  · exact ⟨_, .bind (settles_div _ hx.1) (.pure _), trivial⟩
  · rename_i T o f
    by_cases h : f.isNonNegative
    · exact ⟨.frac f, (settles_map Val.frac (.pure f)).congr fun T => by
        simp only [Ty.retype, Call.run, Fraction.abs, h, if_true], trivial⟩
    · obtain ⟨g, hg, -⟩ := Settles.negate o hx
      exact ⟨.frac g, (settles_map Val.frac hg).congr fun T => by
        simp only [Ty.retype, Call.run, Fraction.abs, h, Bool.false_eq_true, if_false], trivial⟩
  · exact ⟨_, .pure _, trivial⟩
  · exact ⟨_, .pure _, trivial⟩
  · exact ⟨_, .pure _, trivial⟩
  · obtain ⟨g, hg, -⟩ := Settles.mixedAsFraction _ hx
    exact ⟨_, .bind hg (.pure _), trivial⟩

theorem like_of_hasTy (hT : m.HasTy Γ) (hΓ : Γ.NoLiterals) (x : ℕ) : (m x).Like (Γ x) := by
  have h := hT x
  have h' := hΓ x
  revert h h'
  cases Γ x <;> cases m x <;> intro h h' <;> first | trivial | exact absurd h id | exact absurd rfl (h' _ _)

theorem set_like (hl : ∀ x, (m x).Like (Γ x)) {z : ℕ} (h : v.Like (Γ z)) (x : ℕ) :
    (m.set z v x).Like (Γ x) := by
  by_cases hx : x = z
  · subst hx; simpa only [Vars.set, if_true] using h
  · simpa only [Vars.set, hx, if_false] using hl x

theorem settles_test {op : CmpOp} {e1 e2 : VExpr} (hm : m.Holds s) (hl : ∀ x, (m x).Like (Γ x))
    (hc : ∃ a b, e1.ty Γ = some a ∧ e2.ty Γ = some b ∧ a.compares b = true)
    (hr : Reliable op (e1.ty Γ) (e2.ty Γ)) (h1 : e1.value Γ s = some x) (h2 : e2.value Γ s = some y)
    (o1 : e1.Objects) (o2 : e2.Objects) (l1 : e1.SmallLiterals) (l2 : e2.SmallLiterals)
    (p1 : e1.Proper) (p2 : e2.Proper) :
    ∃ b, Settles (fun T => Stmt.test (Γ.retype (only T)) m op (e1.retype (only T))
      (e2.retype (only T))) b ∧ (b = true ↔ op.Holds x y) := by
  obtain ⟨a, b, ha, hb, hc⟩ := hc
  rw [ha, hb] at hr
  obtain ⟨u, hu, hul, hud, -⟩ := settles_inst hm hl e1 ha h1 o1 l1 p1
  obtain ⟨v, hv, hvl, hvd, -⟩ := settles_inst hm hl e2 hb h2 o2 l2 p2
  obtain ⟨k, hk, hk'⟩ := settles_compare hc hr hul hvl hud hvd
  refine ⟨k, (Settles.bind (g := fun T u =>
    ((e2.retype (only T)).inst (Γ.retype (only T)) m).eval >>=
      compare op (a.retype (only T)) (b.retype (only T)) u) hu (Settles.bind hv hk)).congr
        fun T => ?_, hk'⟩
  simp only [Stmt.test, ty_retype (.const T), ha, hb, Option.map_some]

theorem settles_exec {c : Stmt} {s' : ℕ → ℚ} (hr : Meaning Γ c s s') (hm : m.Holds s)
    (hl : ∀ x, (m x).Like (Γ x)) (hΓ : Γ.NoLiterals) (hc : c.Compiles Γ) (hrel : c.Reliable Γ)
    (ho : c.All VExpr.Objects) (hs : c.All VExpr.SmallLiterals) (hp : c.All VExpr.Proper) :
    ∃ (n N : ℕ) (m' : Vars), m'.Holds s' ∧ (∀ x, (m' x).Like (Γ x)) ∧
      ∀ T : IntTy, T.signed = true → N ≤ T.bits →
      ∀ k ≥ n, (c.retype (only T)).exec (Γ.retype (only T)) k m ⇓ some m' := by
  induction hr generalizing m with
  | skip =>
    refine ⟨1, 0, m, hm, hl, fun T _ _ k hk => ?_⟩
    obtain ⟨k, rfl⟩ : ∃ j, k = j + 1 := ⟨k - 1, by omega⟩
    rfl
  | assign he =>
    obtain ⟨t, ht, hc⟩ := hc
    obtain ⟨u, hu, hul, hud, hup⟩ := settles_inst hm hl _ ht he ho hs hp
    obtain ⟨v, hv, hvl, hvd⟩ := settles_convert hc (hΓ _) hul hud hup
    obtain ⟨N, hN⟩ := Settles.bind hu hv
    refine ⟨1, N, _, set_holds hm hvd, set_like hl hvl, fun T hT hb k hk => ?_⟩
    obtain ⟨k, rfl⟩ : ∃ j, k = j + 1 := ⟨k - 1, by omega⟩
    obtain ⟨u', h1, h2⟩ := bind_eq_clean.1 (hN T hT hb)
    simp only [Stmt.retype, Stmt.exec, ty_retype (.const T), ht, Option.map_some, bind_eq_clean]
    exact ⟨u', h1, v, h2, rfl⟩
  | compound ht he hq =>
    obtain ⟨t', ht', hc⟩ := hc
    obtain rfl := Option.some.inj (ht.symm.trans ht')
    obtain ⟨u, hu, hul, hud, hup⟩ := settles_inst hm hl _ ht he ho hs hp
    obtain ⟨v, hv, hvl, hvd⟩ := settles_compound hc (hl _) hul (hm _).1 hud hq
    obtain ⟨N, hN⟩ := Settles.bind hu hv
    refine ⟨1, N, _, set_holds hm hvd, set_like hl hvl, fun T hT hb k hk => ?_⟩
    obtain ⟨k, rfl⟩ : ∃ j, k = j + 1 := ⟨k - 1, by omega⟩
    obtain ⟨u', h1, h2⟩ := bind_eq_clean.1 (hN T hT hb)
    simp only [Stmt.retype, Stmt.exec, ty_retype (.const T), ht, Option.map_some, bind_eq_clean]
    exact ⟨u', h1, v, h2, rfl⟩
  | call he hq =>
    obtain ⟨t, t', ht, hf, hc⟩ := hc
    obtain ⟨u, hu, hul, hud, hup⟩ := settles_inst hm hl _ ht he ho hs hp
    obtain ⟨w, hw, hwl, hwd, hwp⟩ := settles_call hf hul hud hup hq
    obtain ⟨v, hv, hvl, hvd⟩ := settles_convert hc (hΓ _) hwl hwd hwp
    obtain ⟨N, hN⟩ := Settles.bind (Settles.bind hu hw) hv
    refine ⟨1, N, _, set_holds hm hvd, set_like hl hvl, fun T hT hb k hk => ?_⟩
    obtain ⟨k, rfl⟩ : ∃ j, k = j + 1 := ⟨k - 1, by omega⟩
    obtain ⟨w', h1, h2⟩ := bind_eq_clean.1 (hN T hT hb)
    obtain ⟨u', h0, h1⟩ := bind_eq_clean.1 h1
    simp only [Stmt.retype, Stmt.exec, ty_retype (.const T), ht, Option.map_some,
      callTy_retype (.const T), hf, bind_eq_clean]
    exact ⟨u', h0, w', h1, v, h2, rfl⟩
  | seq _ _ ihc ihd =>
    obtain ⟨n1, N1, m1, hm1, hl1, h1⟩ := ihc hm hl hc.1 hrel.1 ho.1 hs.1 hp.1
    obtain ⟨n2, N2, m2, hm2, hl2, h2⟩ := ihd hm1 hl1 hc.2 hrel.2 ho.2 hs.2 hp.2
    refine ⟨max n1 n2 + 1, max N1 N2, m2, hm2, hl2, fun T hT hb k hk => ?_⟩
    obtain ⟨k, rfl⟩ : ∃ j, k = j + 1 := ⟨k - 1, by omega⟩
    simp only [Stmt.retype, Stmt.exec, h1 T hT (by omega) k (by omega), ok_bind_false]
    exact h2 T hT (by omega) k (by omega)
  | iteTrue h1 h2 hb _ ih =>
    obtain ⟨b, ⟨N1, hN1⟩, hb'⟩ := settles_test hm hl hc.1 hrel.1 h1 h2 ho.1 ho.2.1 hs.1 hs.2.1 hp.1 hp.2.1
    obtain ⟨n, N2, m1, hm1, hl1, g⟩ := ih hm hl hc.2.1 hrel.2.1 ho.2.2.1 hs.2.2.1 hp.2.2.1
    refine ⟨n + 1, max N1 N2, m1, hm1, hl1, fun T hT hB k hk => ?_⟩
    obtain ⟨k, rfl⟩ : ∃ j, k = j + 1 := ⟨k - 1, by omega⟩
    simp only [Stmt.retype, Stmt.exec, hN1 T hT (by omega), ok_bind_false, hb'.2 hb, if_true]
    exact g T hT (by omega) k (by omega)
  | iteFalse h1 h2 hb _ ih =>
    obtain ⟨b, ⟨N1, hN1⟩, hb'⟩ := settles_test hm hl hc.1 hrel.1 h1 h2 ho.1 ho.2.1 hs.1 hs.2.1 hp.1 hp.2.1
    obtain ⟨n, N2, m1, hm1, hl1, g⟩ := ih hm hl hc.2.2 hrel.2.2 ho.2.2.2 hs.2.2.2 hp.2.2.2
    refine ⟨n + 1, max N1 N2, m1, hm1, hl1, fun T hT hB k hk => ?_⟩
    obtain ⟨k, rfl⟩ : ∃ j, k = j + 1 := ⟨k - 1, by omega⟩
    have hf : b ≠ true := fun h => hb (hb'.1 h)
    simp only [Stmt.retype, Stmt.exec, hN1 T hT (by omega), ok_bind_false, if_neg hf]
    exact g T hT (by omega) k (by omega)
  | loopTrue h1 h2 hb _ _ ihc ihl =>
    obtain ⟨b, ⟨N1, hN1⟩, hb'⟩ := settles_test hm hl hc.1 hrel.1 h1 h2 ho.1 ho.2.1 hs.1 hs.2.1 hp.1 hp.2.1
    obtain ⟨n1, N2, m1, hm1, hl1, g1⟩ := ihc hm hl hc.2 hrel.2 ho.2.2 hs.2.2 hp.2.2
    obtain ⟨n2, N3, m2, hm2, hl2, g2⟩ := ihl hm1 hl1 hc hrel ho hs hp
    refine ⟨max n1 n2 + 1, max N1 (max N2 N3), m2, hm2, hl2, fun T hT hB k hk => ?_⟩
    obtain ⟨k, rfl⟩ : ∃ j, k = j + 1 := ⟨k - 1, by omega⟩
    simp only [Stmt.retype, Stmt.exec, hN1 T hT (by omega), ok_bind_false, hb'.2 hb, if_true,
      g1 T hT (by omega) k (by omega)]
    exact g2 T hT (by omega) k (by omega)
  | loopFalse h1 h2 hb =>
    obtain ⟨b, ⟨N1, hN1⟩, hb'⟩ := settles_test hm hl hc.1 hrel.1 h1 h2 ho.1 ho.2.1 hs.1 hs.2.1 hp.1 hp.2.1
    refine ⟨1, N1, m, hm, hl, fun T hT hB k hk => ?_⟩
    obtain ⟨k, rfl⟩ : ∃ j, k = j + 1 := ⟨k - 1, by omega⟩
    have hf : b ≠ true := fun h => hb (hb'.1 h)
    simp only [Stmt.retype, Stmt.exec, hN1 T hT (by omega), ok_bind_false, if_neg hf]
    rfl

theorem meaning_unique {c : Stmt} {s₁ s₂ : ℕ → ℚ} (h1 : Meaning Γ c s s₁) (h2 : Meaning Γ c s s₂) :
    s₁ = s₂ := by
  induction h1 generalizing s₂ with
  | skip => cases h2; rfl
  | assign he => cases h2 with | assign he' => rw [he] at he'; cases he'; rfl
  | compound ht he hq =>
    cases h2 with
    | compound ht' he' hq' =>
      rw [he] at he'; cases he'
      rw [ht] at ht'; cases ht'
      rw [hq] at hq'; cases hq'; rfl
  | call he hq =>
    cases h2 with
    | call he' hq' =>
      rw [he] at he'; cases he'
      rw [hq] at hq'; cases hq'; rfl
  | seq _ _ ih1 ih2 =>
    cases h2 with
    | seq hc hd => obtain rfl := ih1 hc; exact ih2 hd
  | iteTrue a b h _ ih =>
    cases h2 with
    | iteTrue a' b' h' hc => exact ih hc
    | iteFalse a' b' h' hc =>
      rw [a] at a'; rw [b] at b'; cases a'; cases b'; exact absurd h h'
  | iteFalse a b h _ ih =>
    cases h2 with
    | iteTrue a' b' h' hc =>
      rw [a] at a'; rw [b] at b'; cases a'; cases b'; exact absurd h' h
    | iteFalse a' b' h' hc => exact ih hc
  | loopTrue a b h _ _ ih1 ih2 =>
    cases h2 with
    | loopTrue a' b' h' hc hl => obtain rfl := ih1 hc; exact ih2 hl
    | loopFalse a' b' h' =>
      rw [a] at a'; rw [b] at b'; cases a'; cases b'; exact absurd h h'
  | loopFalse a b h =>
    cases h2 with
    | loopTrue a' b' h' hc hl =>
      rw [a] at a'; rw [b] at b'; cases a'; cases b'; exact absurd h' h
    | loopFalse a' b' h' => rfl

end Ieme.Overload
