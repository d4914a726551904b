import Verif.Spec.TypedWiden
import Verif.Lemmas.TypedProgram
import Verif.Lemmas.EnoughBits

/-!
# Lemmas about programs with other representations
-/

namespace Ieme.Overload

open Res IntTy

variable {φ : IntTy → IntTy} {l r t t' : Ty} {u v w : Val} {op : ArithOp} {Γ : Decls} {m : Vars}

/-- The replacement respects common types. -/
def Commutes (φ : IntTy → IntTy) : Prop := ∀ T U, φ (IntTy.common T U) = IntTy.common (φ T) (φ U)

theorem Commutes.const (T : IntTy) : Commutes fun _ => T := fun _ _ => (IntTy.common_self T).symm

/-- What becomes of a resolution. -/
def Resolution.retype (φ : IntTy → IntTy) : Resolution → Resolution
  | .calls f (.ty t) => .calls f (.ty (t.retype φ))
  | R => R

theorem head_retype (t : Ty) : (t.retype φ).head = t.head := by cases t <;> rfl

theorem resolve_retype (h : Commutes φ) (op : ArithOp) (l r : Ty) :
    resolve op (l.retype φ) (r.retype φ) = (resolve op l r).retype φ := by
  have h' : ∀ T U, φ (IntTy.common T U) = IntTy.common (φ T) (φ U) := h
  rw [resolve_eq, resolve_eq]
  cases l <;> cases r <;> cases op <;> simp only [Ty.retype] <;> (try split_ifs) <;>
    simp only [Resolution.retype, Ty.retype, h']

theorem resolveCmp_retype (l r : Ty) :
    resolveCmp (l.retype φ) (r.retype φ) = resolveCmp l r := by
  rw [resolveCmp_eq, resolveCmp_eq]
  cases l <;> cases r <;> rfl

theorem resolveAssign_retype (l r : Ty) :
    resolveAssign (l.retype φ) (r.retype φ) = (resolveAssign l r).retype φ := by
  rw [resolveAssign_eq, resolveAssign_eq]
  cases l <;> cases r <;> simp only [Ty.retype] <;> (try split_ifs) <;> rfl

theorem bin_retype (h : Commutes φ) (op : ArithOp) (l r : Ty) :
    Ty.bin op (l.retype φ) (r.retype φ) = (Ty.bin op l r).map (Ty.retype φ) := by
  by_cases hi : ∃ A B, l = .int A ∧ r = .int B
  · obtain ⟨A, B, rfl, rfl⟩ := hi
    simp only [Ty.bin, Ty.retype, Option.map_some, h A B]
  · have e : ∀ l r : Ty, (¬ ∃ A B, l = .int A ∧ r = .int B) → Ty.bin op l r =
        match resolve op l r with
        | .calls _ (.ty t) => some t
        | _ => none := by
      intro l r hi
      cases l <;> cases r <;> first | rfl | exact (hi ⟨_, _, rfl, rfl⟩).elim
    rw [e _ _ hi, e _ _, resolve_retype h]
    · rcases resolve op l r with _ | _ | _ | ⟨f, t | _ | _⟩ <;> rfl
    · rintro ⟨A, B, h1, h2⟩
      cases l <;> cases h1
      cases r <;> cases h2
      exact hi ⟨_, _, rfl, rfl⟩

theorem neg_retype (t : Ty) : (t.retype φ).neg = t.neg.retype φ := by cases t <;> rfl

theorem ty_retype (h : Commutes φ) (e : VExpr) :
    (e.retype φ).ty (Γ.retype φ) = (e.ty Γ).map (Ty.retype φ) := by
  induction e with
  | var x => rfl
  | obj t v => rfl
  | pos e ih => exact ih
  | neg e ih =>
    simp only [VExpr.retype, VExpr.ty, ih, Option.map_map]
    congr 1
    funext t
    exact neg_retype t
  | bin op l r ih1 ih2 =>
    simp only [VExpr.retype, VExpr.ty, ih1, ih2]
    cases l.ty Γ with
    | none => rfl
    | some a =>
      cases r.ty Γ with
      | none => rfl
      | some b => exact bin_retype h op a b

/-! ### Wider types -/

theorem Widening.commutes (h : Widening φ) : Commutes φ := h.common

theorem Widening.common_within (h : Widening φ) (A B : IntTy) :
    (IntTy.common A B).Within (IntTy.common (φ A) (φ B)) := h.common A B ▸ h.within _

theorem sim_fault {α : Type} {k : Fault} {y : Res α} : (Res.fault k : Res α).Sim y := fun _ h => by cases h

theorem builtin_sim (h : Widening φ) (A B : IntTy) (op : ArithOp) (a b : ℤ) :
    (builtin A B op a b).Sim (builtin (φ A) (φ B) op a b) := by
  have hc := h.common_within A B
  refine .bind (hc.conv _) fun _ => .bind (hc.conv _) fun _ => ?_
  cases op
  exacts [hc.add _ _, hc.sub _ _, hc.mul _ _, hc.div _ _, hc.mod _ _]

theorem negate_sim (h : Widening φ) (t : Ty) (u : Val) :
    (negate t u).Sim (negate (t.retype φ) u) := by
  unfold negate
  split
  · exact .bind ((h.within _).neg _) fun _ => .refl _
  · exact .bind (Ops.negate_sim (h.within _) _ _) fun _ => .refl _
  · exact .bind (Mixed.neg_sim (h.within _) (h.within _) _ _) fun _ => .refl _
  · exact .refl _
  · exact sim_fault

theorem call_sim (h : Widening φ) (f : Fn) (hu : u.HasTy l) (hv : v.HasTy r) :
    (call f op l r u v).Sim (call f op (l.retype φ) (r.retype φ) u v) := by
  unfold call
  split
  · exact .bind (Fraction.arith_sim (a := .ff _ _) (h.common_within _ _) (And.intro hu hv) _ _) fun _ => .refl _
  · exact .bind (Fraction.arith_sim (a := .fr _ _) (h.common_within _ _) (And.intro hu hv) _ _) fun _ => .refl _
  · exact .bind (Fraction.arith_sim (a := .rf _ _) (h.common_within _ _) (And.intro hu hv) _ _) fun _ => .refl _
  · exact .bind (Mixed.add_sim (h.common_within _ _) (h.common_within _ _) _ _ _) fun _ => .refl _
  · exact .bind (Mixed.addFraction_sim (h.common_within _ _) (h.common_within _ _) (h.within _) _ _ _)
      fun _ => .refl _
  · exact .bind (Mixed.addFraction_sim (h.common_within _ _) (h.common_within _ _) (h.within _) _ _ _)
      fun _ => .refl _
  · exact .bind (Mixed.addWhole_sim (h.common_within _ _) (h.within _) _ _ _) fun _ => .refl _
  · exact .bind (Mixed.addWhole_sim (h.common_within _ _) (h.within _) _ _ _) fun _ => .refl _
  · exact .bind (DenLit.divFraction_sim (h.within _) _ _ _) fun _ => .refl _
  · exact .bind (DenLit.divRep_sim (h.within _) _ _) fun _ => .refl _
  · exact sim_fault

theorem apply_cases (op : ArithOp) (l r : Ty) (u v : Val) :
    (∃ A B a b, l = .int A ∧ r = .int B ∧ u = .int a ∧ v = .int b) ∨
    ∀ φ : IntTy → IntTy, apply op (l.retype φ) (r.retype φ) u v =
      match resolve op (l.retype φ) (r.retype φ) with
      | .calls f (.ty _) => call f op (l.retype φ) (r.retype φ) u v
      | _ => .fault .illFormed := by
  cases l <;> cases r <;> first
    | exact .inr fun _ => rfl
    | (cases u <;> cases v <;> first
        | exact .inr fun _ => rfl
        | exact .inl ⟨_, _, _, _, rfl, rfl, rfl, rfl⟩)

theorem retype_id (t : Ty) : t.retype (fun T => T) = t := by cases t <;> rfl

theorem apply_sim (h : Widening φ) (op : ArithOp) (hu : u.HasTy l) (hv : v.HasTy r) :
    (apply op l r u v).Sim (apply op (l.retype φ) (r.retype φ) u v) := by
  rcases apply_cases op l r u v with ⟨A, B, a, b, rfl, rfl, rfl, rfl⟩ | hr
  · exact .bind (builtin_sim h A B op a b) fun _ => .refl _
  · have h0 := hr fun T => T
    rw [retype_id, retype_id] at h0
    rw [h0, hr φ, resolve_retype h.commutes]
    rcases resolve op l r with _ | _ | _ | ⟨f, t | _ | _⟩ <;> first | exact sim_fault | skip
    exact call_sim h f hu hv

theorem inst_sim (h : Widening φ) (hm : m.HasTy Γ) {e : VExpr} (ho : e.Objects) :
    (e.inst Γ m).eval.Sim ((e.retype φ).inst (Γ.retype φ) m).eval := by
  induction e with
  | var x => exact .refl _
  | obj t v => exact .refl _
  | pos e ih => exact ih ho
  | neg e ih =>
    have hi := ih ho
    simp only [VExpr.retype, VExpr.inst, TExpr.eval, inst_ty, ty_retype h.commutes]
    cases e.ty Γ with
    | none => exact .refl _
    | some t => exact .bind hi fun _ => negate_sim h t _
  | bin op l r ih1 ih2 =>
    have h1 := ih1 ho.1
    have h2 := ih2 ho.2
    simp only [VExpr.retype, VExpr.inst, TExpr.eval, inst_ty, ty_retype h.commutes]
    cases hl : l.ty Γ with
    | none => exact .refl _
    | some a =>
      cases hr : r.ty Γ with
      | none => exact .refl _
      | some b =>
        intro w e
        simp only [Option.map_some, bind_eq_clean] at e ⊢
        obtain ⟨x, hx, y, hy, e⟩ := e
        exact ⟨x, h1 x hx, y, h2 y hy, apply_sim h op
          (eval_type (inst_wellTyped hm ho.1) ((inst_ty Γ m l).trans hl) _ _ hx)
          (eval_type (inst_wellTyped hm ho.2) ((inst_ty Γ m r).trans hr) _ _ hy) w e⟩

theorem convert_sim (h : Widening φ) (l r : Ty) (u : Val) :
    (convert l r u).Sim (convert (l.retype φ) (r.retype φ) u) := by
  unfold convert
  split
  · exact .bind ((h.within _).conv _) fun _ => .refl _
  · exact .bind ((h.within _).conv _) fun _ => .refl _
  · exact .bind ((h.within _).conv _) fun _ =>
      .bind (Mixed.mk_sim (h.within _) (h.within _) _ _ _) fun _ => .refl _
  · exact .refl _
  · rename_i S o T o' f
    simp only [Ty.retype]
    by_cases ho : o = o'
    · rw [if_pos ho, if_pos ho]
      by_cases hS : S = T
      · rw [if_pos hS, if_pos (congrArg φ hS)]; exact .refl _
      · rw [if_neg hS]
        intro w e
        simp only [bind_eq_clean, pure_eq_ok, and_true] at e
        obtain ⟨g, hg, rfl⟩ := e
        obtain ⟨hr, rfl⟩ := Raw.conv_clean.1 hg
        split
        · rfl
        · simp only [bind_eq_clean, pure_eq_ok, and_true]
          exact ⟨g, Raw.conv_clean.2 ⟨(h.within _).raw hr, rfl⟩, rfl⟩
    · rw [if_neg ho]; exact sim_fault
  · rename_i S o W F o' f
    simp only [Ty.retype]
    by_cases ho : o = o'
    · rw [if_pos ho, if_pos ho]
      exact .bind (Mixed.ofFraction_sim (h.within _) (h.within _) (h.within _) _ _) fun _ => .refl _
    · rw [if_neg ho]; exact sim_fault
  · rename_i W F o T o' k
    simp only [Ty.retype]
    by_cases ho : T = IntTy.common W F ∧ o = o'
    · rw [if_pos ho, if_pos ⟨ho.1 ▸ h.common W F, ho.2⟩]
      exact .bind (Mixed.asFraction_sim (h.common_within _ _) _ _) fun _ => .refl _
    · rw [if_neg ho]; exact sim_fault
  · rename_i W F o W' F' o' k
    simp only [Ty.retype]
    by_cases ho : W = W' ∧ F = F' ∧ o = o'
    · obtain ⟨rfl, rfl, rfl⟩ := ho
      simp only [and_self, if_true]; exact .refl _
    · rw [if_neg ho]; exact sim_fault
  · exact .refl _
  · exact sim_fault

theorem compoundAssign_sim (h : Widening φ) (op : ArithOp) (hu : u.HasTy l) (hv : v.HasTy r) :
    (compoundAssign op l r u v).Sim (compoundAssign op (l.retype φ) (r.retype φ) u v) := by
  unfold compoundAssign
  split
  · exact .bind (builtin_sim h _ _ _ _ _) fun _ => .bind ((h.within _).conv _) fun _ => .refl _
  · rename_i L o R o' a b
    rw [resolveAssign_retype]
    simp only [Ty.retype]
    rcases resolveAssign (.frac L o) (.frac R o') with _ | _ | _ | ⟨f, t | _ | _⟩ <;>
      first | exact sim_fault | skip
    all_goals
      cases f <;> first | exact sim_fault | skip
      simp only [Resolution.retype]
      refine .bind ?_ fun _ => .refl _
      unfold Fraction.assignF
      by_cases hL : L = R
      · subst hL
        simp only [if_true]; exact Fraction.arith_self_sim (h.within _) _ _ _
      · rw [if_neg hL]
        intro w e
        simp only [bind_eq_clean] at e
        obtain ⟨g, hg, e⟩ := e
        obtain ⟨hr, rfl⟩ := Raw.conv_clean.1 hg
        split
        · rename_i he
          rw [← he]
          exact Fraction.arith_self_sim (h.within L) _ _ _ _ e
        · simp only [bind_eq_clean]
          exact ⟨g, Raw.conv_clean.2 ⟨(h.within _).raw hr, rfl⟩,
            Fraction.arith_self_sim (h.within L) _ _ _ _ e⟩
  · rename_i L o R a n
    rw [resolveAssign_retype]
    simp only [Ty.retype]
    rcases resolveAssign (.frac L o) (.int R) with _ | _ | _ | ⟨f, t | _ | _⟩ <;>
      first | exact sim_fault | skip
    all_goals
      cases f <;> first | exact sim_fault | skip
      simp only [Resolution.retype]
      refine .bind ?_ fun _ => .refl _
      unfold Fraction.assignR
      by_cases hL : L = R
      · subst hL
        simp only [if_true]; exact Fraction.arith_self_sim (h.within _) _ _ _
      · rw [if_neg hL]
        intro w e
        simp only [bind_eq_clean] at e
        obtain ⟨g, hg, e⟩ := e
        obtain ⟨hr, rfl⟩ := conv_clean.1 hg
        split
        · rename_i he
          rw [← he]
          exact Fraction.arith_self_sim (h.within L) _ _ _ _ e
        · simp only [bind_eq_clean]
          exact ⟨g, conv_clean.2 ⟨(h.within _) _ hr, rfl⟩,
            Fraction.arith_self_sim (h.within L) _ _ _ _ e⟩
  · exact sim_fault

theorem compare_sim (h : Widening φ) (op : CmpOp) (hu : u.HasTy l) (hv : v.HasTy r) :
    (compare op l r u v).Sim (compare op (l.retype φ) (r.retype φ) u v) := by
  unfold compare
  split
  · exact .bind ((h.common_within _ _).conv _) fun _ => .bind ((h.common_within _ _).conv _)
      fun _ => .refl _
  · rw [resolveCmp_retype]
    split <;> first | exact sim_fault | skip
    exact Fraction.cmp_sim (a := .ff _ _) (h.common_within _ _) (And.intro hu hv) _ _
  · rw [resolveCmp_retype]
    split <;> first | exact sim_fault | skip
    exact Fraction.cmp_sim (a := .fr _ _) (h.common_within _ _) (And.intro hu hv) _ _
  · rw [resolveCmp_retype]
    split <;> first | exact sim_fault | skip
    exact Fraction.cmp_sim (a := .rf _ _) (h.common_within _ _) (And.intro hu hv) _ _
  · exact sim_fault

theorem callTy_retype (h : Commutes φ) (f : Call) (t : Ty) :
    f.ty (t.retype φ) = (f.ty t).map (Ty.retype φ) := by
  cases f <;> cases t <;> simp [Call.ty, Ty.retype, h _ _]

theorem callRun_sim (h : Widening φ) (f : Call) (t : Ty) (u : Val) :
    (f.run t u).Sim (f.run (t.retype φ) u) := by
  unfold Call.run
  split
  · exact .bind ((h.within _).div _ _) fun _ => .refl _
  · exact .bind (Fraction.abs_sim (h.within _) _ _) fun _ => .refl _
  · exact .refl _
  · exact .refl _
  · exact .refl _
  · exact .bind (Mixed.asFraction_sim (h.common_within _ _) _ _) fun _ => .refl _
  · exact sim_fault

theorem test_sim (h : Widening φ) (hm : m.HasTy Γ) (op : CmpOp) {e1 e2 : VExpr} (h1 : e1.Objects)
    (h2 : e2.Objects) :
    (Stmt.test Γ m op e1 e2).Sim (Stmt.test (Γ.retype φ) m op (e1.retype φ) (e2.retype φ)) := by
  unfold Stmt.test
  rw [ty_retype h.commutes, ty_retype h.commutes]
  cases ha : e1.ty Γ with
  | none => exact .refl _
  | some a =>
    cases hb : e2.ty Γ with
    | none => exact .refl _
    | some b =>
      intro w e
      simp only [Option.map_some, bind_eq_clean] at e ⊢
      obtain ⟨x, hx, y, hy, e⟩ := e
      exact ⟨x, inst_sim h hm h1 x hx, y, inst_sim h hm h2 y hy, compare_sim h op
        (eval_type (inst_wellTyped hm h1) ((inst_ty Γ m e1).trans ha) _ _ hx)
        (eval_type (inst_wellTyped hm h2) ((inst_ty Γ m e2).trans hb) _ _ hy) w e⟩

/-- A clean run is the same run with wider types. -/
theorem exec_sim (h : Widening φ) : ∀ (n : ℕ) (c : Stmt) (m : Vars), c.Compiles Γ →
    c.All VExpr.Objects → m.HasTy Γ →
    (c.exec Γ n m).Sim ((c.retype φ).exec (Γ.retype φ) n m)
  | 0, _, _, _, _, _ => by simp only [Stmt.exec]; exact .refl _
  | n + 1, .skip, m, _, _, _ => .refl _
  | n + 1, .assign x e, m, _, ho, hm => by
    simp only [Stmt.retype, Stmt.exec, ty_retype h.commutes]
    cases e.ty Γ with
    | none => exact .refl _
    | some t => exact .bind (inst_sim h hm ho) fun _ => .bind (convert_sim h _ _ _) fun _ => .refl _
  | n + 1, .compound op x e, m, _, ho, hm => by
    simp only [Stmt.retype, Stmt.exec, ty_retype h.commutes]
    cases ht : e.ty Γ with
    | none => exact .refl _
    | some t =>
      intro w e'
      simp only [Option.map_some, bind_eq_clean] at e' ⊢
      obtain ⟨v, hv, v', hv', e'⟩ := e'
      exact ⟨v, inst_sim h hm ho v hv, v', compoundAssign_sim h op (hm x)
        (eval_type (inst_wellTyped hm ho) ((inst_ty Γ m e).trans ht) _ _ hv) _ hv', e'⟩
  | n + 1, .call f x e, m, _, ho, hm => by
    simp only [Stmt.retype, Stmt.exec, ty_retype h.commutes]
    cases e.ty Γ with
    | none => exact .refl _
    | some t =>
      simp only [Option.map_some, callTy_retype h.commutes]
      cases f.ty t with
      | none => exact .refl _
      | some t' =>
        exact .bind (inst_sim h hm ho) fun _ => .bind (callRun_sim h _ _ _) fun _ =>
          .bind (convert_sim h _ _ _) fun _ => .refl _
  | n + 1, .seq c d, m, hc, ho, hm => by
    intro w e
    simp only [Stmt.retype, Stmt.exec, bind_eq_clean] at e ⊢
    obtain ⟨r, h1, h2⟩ := e
    refine ⟨r, exec_sim h n c m hc.1 ho.1 hm r h1, ?_⟩
    cases r with
    | none => exact h2
    | some m' =>
      exact exec_sim h n d m' hc.2 ho.2 ((exec_fine hc.1 ho.1 hm n).1 _ _ h1 m' rfl) w h2
  | n + 1, .ite op e1 e2 c d, m, hc, ho, hm => by
    simp only [Stmt.retype, Stmt.exec]
    refine .bind (test_sim h hm op ho.1 ho.2.1) fun b => .ite ?_ ?_
    · exact exec_sim h n c m hc.2.1 ho.2.2.1 hm
    · exact exec_sim h n d m hc.2.2 ho.2.2.2 hm
  | n + 1, .loop op e1 e2 c, m, hc, ho, hm => by
    simp only [Stmt.retype, Stmt.exec]
    refine .bind (test_sim h hm op ho.1 ho.2.1) fun b => .ite ?_ (.refl _)
    intro w e
    simp only [bind_eq_clean] at e ⊢
    obtain ⟨r, h1, h2⟩ := e
    refine ⟨r, exec_sim h n c m hc.2 ho.2.2 hm r h1, ?_⟩
    cases r with
    | none => exact h2
    | some m' =>
      exact exec_sim h n (.loop op e1 e2 c) m' hc ho
        ((exec_fine hc.2 ho.2.2 hm n).1 _ _ h1 m' rfl) w h2

end Ieme.Overload
