import Verif.Lemmas.UserFit
import Verif.Props.ProgramBounds
import Verif.Spec.UserProgram

/-!
# Lemmas: code of users runs like programs of the model
-/

namespace Ieme.User

open Header Res

set_option maxRecDepth 100000

variable {o : Ops} {tys : Types} {n : ℕ} {ents : List (ℕ × Val)} {T : IntTy} {V : List ℕ} {m m' : Ieme.Mem}

theorem ReadsExpr.inst {a : Header.Expr} {e : PExpr} (h : ReadsExpr T V a e)
    (hc : Contents T o V ents m) : Reads T o ents a (e.inst m) := by
  induction h with
  | var hx => exact .var (hc _ hx)
  | neg _ ih => exact .neg ih
  | pos _ ih => exact .pos ih
  | ff _ _ ih1 ih2 => exact .ff ih1 ih2
  | fr hT _ ih => exact .frNum hT ih
  | rf hT _ ih => exact .rfNum hT ih

theorem cmpOf_symbol (op : CmpOp) : cmpOf (cmpSymbol op) = some op := by cases op <;> rfl

/-- Conditions. -/
theorem test_eval (hn : policyDepth o ≤ n) {op : CmpOp} {a b : Header.Expr} {e1 e2 : PExpr} {r : Bool}
    (ha : ReadsExpr T V a e1) (hb : ReadsExpr T V b e2) (hc : Contents T o V ents m)
    (h : Cmd.test T o m op e1 e2 ⇓ r) :
    userEval n tys ents (.bin (cmpSymbol op) a b) = .ok (.bool r) false := by
  have hd := policyDepth_eq o
  obtain ⟨v, hv, h⟩ := bind_eq_clean.1 h
  obtain ⟨w, hw, h⟩ := bind_eq_clean.1 h
  have h1 : eval library (invoke library n) (userEnv tys ents) a = pure (.frac T o v) := by
    have := reads_eval (tys := tys) hn (ha.inst hc)
    rw [hv] at this
    exact this
  have h2 : eval library (invoke library n) (userEnv tys ents) b = pure (.frac T o w) := by
    have := reads_eval (tys := tys) hn (hb.inst hc)
    rw [hw] at this
    exact this
  have text := cmp_text (o := o) (n := n) (cmpOf_symbol op) T T (.ff v w) (by omega)
  rw [h] at text
  have bin : eval library (invoke library n) (userEnv tys ents) (.bin (cmpSymbol op) a b) =
        (eval library (invoke library n) (userEnv tys ents) a >>= fun x =>
          eval library (invoke library n) (userEnv tys ents) b >>= fun y =>
            binary (invoke library n) (cmpSymbol op) x y) := by
    cases op <;> simp only [cmpSymbol, eval]
  rw [userEval, bin, h1, h2, pure_bind, pure_bind]
  exact text

theorem Contents.assign {x : ℕ} {v : Raw} (hc : Contents T o V ents m) :
    Contents T o V ((x, .frac T o v) :: ents) (fun y => if y = x then v else m y) := by
  intro y hy
  by_cases h : y = x
  · subst h; simp
  · rw [lookup_ne h]; simpa only [if_neg h] using hc y hy

/-- Statements. -/
theorem exec_program {α : Type} {g : Val → Env → Res α} (hn : policyDepth o ≤ n) {s : Stmt} {c : Cmd}
    (hs : ReadsStmt T V s c) {fuel : ℕ} (hc : Contents T o V ents m) (h : c.exec T o fuel m ⇓ some m') :
    ∃ ents', Contents T o V ents' m' ∧ ∀ k : Env → Res α,
      exec library (invoke library n) none g s none (userEnv tys ents) k = k (userEnv tys ents') := by
  induction hs generalizing ents m m' fuel with
  | nil =>
    cases fuel with
    | zero => cases h
    | succ fuel => cases h; exact ⟨ents, hc, fun k => by simp only [exec]⟩
  | @assign x a e s c hx ha _ ih =>
    cases fuel with
    | zero => cases h
    | succ fuel =>
      obtain ⟨r, hr, h⟩ := bind_eq_clean.1 h
      cases fuel with
      | zero => cases hr; cases h
      | succ fuel =>
        obtain ⟨v, hv, hr⟩ := bind_eq_clean.1 hr
        cases pure_clean hr
        have h1 : eval library (invoke library n) (userEnv tys ents) a = pure (.frac T o v) := by
          have := reads_eval (tys := tys) hn (ha.inst hc)
          rw [hv] at this
          exact this
        obtain ⟨ents', hc', hk⟩ := ih hc.assign h
        refine ⟨ents', hc', fun k => ?_⟩
        rw [show userEnv tys ents = ⟨.global, tys, ents⟩ from rfl, exec_assign]
        rw [show userEnv tys ents = ⟨.global, tys, ents⟩ from rfl] at h1
        simp only [seq, h1, pure_bind, hc x hx, orIll, Val.type, construct, if_true]
        exact hk k
  | @ite op a b e1 e2 s1 s2 c1 c2 s c ha hb _ _ _ ih1 ih2 ih =>
    cases fuel with
    | zero => cases h
    | succ fuel =>
      obtain ⟨r, hr, h⟩ := bind_eq_clean.1 h
      cases fuel with
      | zero => cases hr; cases h
      | succ fuel =>
        obtain ⟨t, ht, hr⟩ := bind_eq_clean.1 hr
        have h1 := test_eval (tys := tys) hn ha hb hc ht
        unfold userEval at h1
        cases r with
        | none => cases h
        | some m1 =>
          cases t with
          | true =>
            obtain ⟨ents1, hc1, hk1⟩ := ih1 hc hr
            obtain ⟨ents', hc', hk⟩ := ih hc1 h
            refine ⟨ents', hc', fun k => ?_⟩
            simp only [exec, h1]
            rw [show (Res.ok (Val.bool true) false : Res Val) = pure (.bool true) from rfl, pure_bind]
            simp only [if_true]
            refine Eq.trans ?_ (hk k)
            exact hk1 (fun env => exec library (invoke library n) none g s none env k)
          | false =>
            obtain ⟨ents1, hc1, hk1⟩ := ih2 hc hr
            obtain ⟨ents', hc', hk⟩ := ih hc1 h
            refine ⟨ents', hc', fun k => ?_⟩
            simp only [exec, h1]
            rw [show (Res.ok (Val.bool false) false : Res Val) = pure (.bool false) from rfl, pure_bind]
            simp only [Bool.false_eq_true, if_false]
            refine Eq.trans ?_ (hk k)
            exact hk1 (fun env => exec library (invoke library n) none g s none env k)

/-- Code. -/
theorem run_program (hn : policyDepth o ≤ n) {code : Code} {c : Cmd} (hs : ReadsCode T V code c) {fuel : ℕ}
    (hc : Contents T o V ents m) (h : c.exec T o fuel m ⇓ some m') :
    ∃ ents', Contents T o V ents' m' ∧ Runs n tys code ents (.next ents') := by
  induction fuel generalizing code c ents m m' with
  | zero => cases h
  | succ fuel ih =>
    cases hs with
    | stmt hs =>
      obtain ⟨ents', hc', hk⟩ := exec_program (tys := tys) hn hs hc h
      exact ⟨ents', hc', .stmt (hk _)⟩
    | seq ha hb =>
      obtain ⟨r, hr, h⟩ := bind_eq_clean.1 h
      cases r with
      | none => cases h
      | some m1 =>
        obtain ⟨ents1, hc1, h1⟩ := ih ha hc hr
        obtain ⟨ents', hc', h2⟩ := ih hb hc1 h
        exact ⟨ents', hc', .seqNext h1 h2⟩
    | loop ha hb hbody =>
      obtain ⟨t, ht, h⟩ := bind_eq_clean.1 h
      have h1 := test_eval (tys := tys) hn ha hb hc ht
      cases t with
      | true =>
        obtain ⟨r, hr, h⟩ := bind_eq_clean.1 h
        cases r with
        | none => cases h
        | some m1 =>
          obtain ⟨ents1, hc1, h2⟩ := ih hbody hc hr
          obtain ⟨ents', hc', h3⟩ := ih (.loop ha hb hbody) hc1 h
          exact ⟨ents', hc', .again h1 h2 h3⟩
      | false =>
        cases h
        exact ⟨ents, hc, .done h1⟩

end Ieme.User
