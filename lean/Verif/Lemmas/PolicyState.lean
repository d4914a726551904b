import Verif.Spec.PolicyState
import Verif.Lemmas.Policy

/-!
# Lemmas on policies with hidden state
-/

namespace Ieme

open Res IntTy
open scoped List

variable {α β : Type} {p : Policy} {T : IntTy}

/-! ## The calls a function makes -/

namespace Policy.Calls

theorem imp {f : ∀ σ : Type, SPolicy σ → Act σ α} {y : Res α} {A B : List Member → Prop}
    (h : p.Calls f y A) (hi : ∀ ms, A ms → B ms) : p.Calls f y B := by
  obtain ⟨cs, h1, h2⟩ := h
  exact ⟨cs, h1, fun hy => hi _ (h2 hy)⟩

theorem lift (y : Res α) : p.Calls (fun σ _ => (liftM y : Act σ α)) y (· = []) :=
  ⟨[], fun _ _ _ _ _ => rfl, fun _ => rfl⟩

theorem pure (a : α) : p.Calls (fun σ _ => (Pure.pure a : Act σ α)) (Pure.pure a) (· = []) :=
  ⟨[], fun _ _ _ _ _ => rfl, fun _ => rfl⟩

theorem bind {f : ∀ σ : Type, SPolicy σ → Act σ α} {y : Res α} {A : List Member → Prop}
    {k : ∀ σ : Type, SPolicy σ → α → Act σ β} {z : α → Res β} {B C : List Member → Prop}
    (h : p.Calls f y A) (h' : ∀ a, p.Calls (fun σ P => k σ P a) (z a) B)
    (hc : ∀ ms ns, A ms → B ns → C (ms ++ ns)) :
    p.Calls (fun σ P => f σ P >>= k σ P) (y >>= z) C := by
  obtain ⟨cs, h1, h2⟩ := h
  cases y with
  | fault q =>
    refine ⟨[], fun σ P note hP s => ?_, ?_⟩
    · show (f σ P s >>= fun r => k σ P r.1 r.2) = _
      rw [h1 σ P note hP s]
      rfl
    · rintro ⟨r, w, hr⟩
      simp at hr
  | ok a w =>
    obtain ⟨ds, h3, h4⟩ := h' a
    refine ⟨cs ++ ds, fun σ P note hP s => ?_, ?_⟩
    · show (f σ P s >>= fun r => k σ P r.1 r.2) = _
      rw [h1 σ P note hP s]
      rw [List.foldl_append]
      have e := h3 σ P note hP (cs.foldl note s)
      simp only [bind_assoc, pure_bind]
      simp only [bind_def, Res.bind] at e ⊢
      rw [e]
    · rintro ⟨r, w', hr⟩
      obtain ⟨a', w1, w2, e1, e2, -⟩ := bind_eq_ok.1 hr
      cases e1
      rw [List.map_append]
      exact hc _ _ (h2 ⟨a, w, rfl⟩) (h4 ⟨r, w2, e2⟩)

theorem seq {f : ∀ σ : Type, SPolicy σ → Act σ α} {y : Res α} {as bs : List Member}
    {k : ∀ σ : Type, SPolicy σ → α → Act σ β} {z : α → Res β}
    (h : p.Calls f y (· = as)) (h' : ∀ a, p.Calls (fun σ P => k σ P a) (z a) (· = bs)) :
    p.Calls (fun σ P => f σ P >>= k σ P) (y >>= z) (· = as ++ bs) :=
  h.bind h' fun _ _ h1 h2 => by rw [h1, h2]

/-- Steps without calls change nothing. -/
theorem after {y : Res α} {A : List Member → Prop} {k : ∀ σ : Type, SPolicy σ → α → Act σ β}
    {z : α → Res β} (h' : ∀ a, p.Calls (fun σ P => k σ P a) (z a) A) :
    p.Calls (fun σ P => (liftM y : Act σ α) >>= k σ P) (y >>= z) A :=
  (lift y).bind h' fun _ _ h1 h2 => by rwa [h1]

theorem ite {c : Prop} [Decidable c] {f g : ∀ σ : Type, SPolicy σ → Act σ α} {y z : Res α}
    {A : List Member → Prop} (h : c → p.Calls f y A) (h' : ¬ c → p.Calls g z A) :
    p.Calls (fun σ P => if c then f σ P else g σ P) (if c then y else z) A := by
  by_cases hc : c
  · simpa only [hc, if_true] using h hc
  · simpa only [hc, if_false] using h' hc

theorem negate (v : Raw) : p.Calls (fun _ P => P.negate T v) (p.negate T v) (· = [.negate]) :=
  ⟨[.negate T v], fun _ _ _ hP s => hP.negate T v s, fun _ => rfl⟩

theorem arith (op : ArithOp) (a : Args) :
    p.Calls (fun _ P => P.arith T op a) (p.arith T op a) (· = [.arith op]) :=
  ⟨[.arith T op a], fun _ _ _ hP s => hP.arith T op a s, fun _ => rfl⟩

theorem cmp (op : CmpOp) (a : Args) :
    p.Calls (fun _ P => P.cmp T op a) (p.cmp T op a) (· = [.cmp op]) :=
  ⟨[.cmp T op a], fun _ _ _ hP s => hP.cmp T op a s, fun _ => rfl⟩

theorem fNeg (v : Raw) : p.Calls (fun _ P => P.fNeg T v) (p.fNeg T v) (· = [.negate]) := negate v

theorem fArith (L R : IntTy) (op : ArithOp) (a : Args) :
    p.Calls (fun _ P => P.fArith L R op a) (p.fArith L R op a) (· = [.arith op]) :=
  after fun a => arith op a

theorem fCmp (L R : IntTy) (op : CmpOp) (a : Args) :
    p.Calls (fun _ P => P.fCmp L R op a) (p.fCmp L R op a) (· = [.cmp op]) :=
  after fun a => cmp op a

theorem assignF (L R : IntTy) (op : ArithOp) (l r : Raw) :
    p.Calls (fun _ P => P.assignF L R op l r) (p.assignF L R op l r) (· = [.arith op]) :=
  ite (fun _ => fArith _ _ _ _) fun _ => after fun _ => fArith _ _ _ _

theorem assignR (L R : IntTy) (op : ArithOp) (l : Raw) (r : ℤ) :
    p.Calls (fun _ P => P.assignR L R op l r) (p.assignR L R op l r) (· = [.arith op]) :=
  ite (fun _ => fArith _ _ _ _) fun _ => after fun _ => fArith _ _ _ _

theorem abs (f : Raw) : p.Calls (fun _ P => P.abs T f) (p.abs T f)
    (· = if f.isNonNegative then [] else [.negate]) := by
  refine ite (fun h => ?_) fun h => ?_
  · rw [if_pos h]; exact pure f
  · rw [if_neg h]; exact fNeg f

theorem round (f : Raw) : p.Calls (fun _ P => P.round T f) (p.round T f)
    (· = [.arith .minus, .cmp .less]) :=
  after fun _ => (fArith T T .minus _).seq (bs := [.cmp .less]) fun _ =>
    (fCmp T T .less _).seq (bs := []) fun _ => ite (fun _ => pure _) fun _ => lift _

theorem truncRedenominate (f : Raw) (d : ℤ) : p.Calls (fun _ P => P.truncRedenominate T f d)
    (p.truncRedenominate T f d) (· = [.arith .multiplies]) :=
  (fArith T T .multiplies _).seq (bs := []) fun _ => after fun _ => pure _

theorem ceilRedenominate (f : Raw) (d : ℤ) : p.Calls (fun _ P => P.ceilRedenominate T f d)
    (p.ceilRedenominate T f d) (· = [.arith .multiplies]) :=
  ite (fun _ => (fArith T T .multiplies _).seq (bs := []) fun _ => after fun _ => pure _)
    fun _ => after fun _ => (fArith T T .multiplies _).seq (bs := []) fun _ => after fun _ =>
      after fun _ => pure _

theorem floorRedenominate (f : Raw) (d : ℤ) : p.Calls (fun _ P => P.floorRedenominate T f d)
    (p.floorRedenominate T f d) (· = [.arith .multiplies]) :=
  ite (fun _ => (fArith T T .multiplies _).seq (bs := []) fun _ => after fun _ => pure _)
    fun _ => after fun _ => (fArith T T .multiplies _).seq (bs := []) fun _ => after fun _ =>
      after fun _ => pure _

theorem roundRedenominate (f : Raw) (d : ℤ) : p.Calls (fun _ P => P.roundRedenominate T f d)
    (p.roundRedenominate T f d) (· = [.arith .multiplies, .arith .minus, .cmp .less]) :=
  (fArith T T .multiplies _).seq (bs := [.arith .minus, .cmp .less]) fun _ =>
    (round _).seq (bs := []) fun _ => pure _

/-! ### Mixed numbers -/

theorem fixImproper (W F : IntTy) (m : Mixed) : p.Calls (fun _ P => P.fixImproper W F m)
    (p.fixImproper W F m) (· <+ [.arith .minus]) := by
  refine after fun i => ?_
  refine ite (fun _ => ?_) fun _ => ?_
  · refine imp (after fun _ => after fun _ => after fun _ => (assignR F F .minus _ _).seq (bs := [])
      fun _ => pure _) ?_
    rintro _ rfl
    exact List.Sublist.refl _
  · refine imp (pure _) ?_
    rintro _ rfl
    exact List.nil_sublist _

theorem fixSigns (W F : IntTy) (m : Mixed) : p.Calls (fun _ P => P.fixSigns W F m)
    (p.fixSigns W F m) (· <+ [.arith .plus]) := by
  have h0 : ∀ ms, ms = [Member.arith .plus] → ms <+ [Member.arith .plus] := by
    rintro _ rfl
    exact List.Sublist.refl _
  refine ite (fun _ => ?_) fun _ => ite (fun _ => ?_) fun _ => ?_
  · exact imp (after fun _ => (fArith F F .plus _).seq (bs := []) fun _ => pure _) h0
  · exact imp (after fun _ => after fun _ => (fArith F F .plus _).seq (bs := []) fun _ => pure _) h0
  · refine imp (pure _) ?_
    rintro _ rfl
    exact List.nil_sublist _

theorem fix (W F : IntTy) (m : Mixed) : p.Calls (fun _ P => P.fix W F m)
    (p.fix W F m) (· <+ [.arith .minus, .arith .plus]) :=
  (fixImproper W F m).bind (fun _ => fixSigns W F _) fun _ _ h1 h2 => h1.append h2

theorem mk' (W F : IntTy) (whole : ℤ) (f : Raw) : p.Calls (fun _ P => P.mk' W F whole f)
    (p.mk' W F whole f) (· <+ [.arith .minus, .arith .plus]) := fix W F _

theorem ofFraction (W F S : IntTy) (v : Raw) : p.Calls (fun _ P => P.ofFraction W F S v)
    (p.ofFraction W F S v) (· = [.arith .minus]) :=
  after fun _ => after fun _ => after fun _ => (fArith S S .minus _).seq (bs := []) fun _ =>
    after fun _ => pure _

theorem asFraction (W F : IntTy) (m : Mixed) : p.Calls (fun _ P => P.asFraction W F m)
    (p.asFraction W F m) (· = [.arith .plus]) :=
  after fun _ => after fun _ => fArith _ _ .plus _

theorem mNeg (W F : IntTy) (m : Mixed) : p.Calls (fun _ P => P.mNeg W F m)
    (p.mNeg W F m) (fun ms => ∃ ns, ms = .negate :: ns ∧ ns <+ [.arith .minus, .arith .plus]) :=
  after fun _ => (fNeg _).bind (fun _ => mk' W F _ _) fun _ ns h1 h2 => ⟨ns, by rw [h1]; rfl, h2⟩

theorem mAdd (W₁ F₁ W₂ F₂ : IntTy) (l r : Mixed) : p.Calls (fun _ P => P.mAdd W₁ F₁ W₂ F₂ l r)
    (p.mAdd W₁ F₁ W₂ F₂ l r)
    (fun ms => ∃ ns, ms = .arith .plus :: ns ∧ ns <+ [.arith .minus, .arith .plus]) :=
  after fun _ => after fun _ => after fun _ => after fun _ => after fun _ =>
    (fArith _ _ .plus _).bind (fun _ => mk' _ _ _ _) fun _ ns h1 h2 => ⟨ns, by rw [h1]; rfl, h2⟩

theorem mAddFraction (W F₁ F₂ : IntTy) (l : Mixed) (r : Raw) :
    p.Calls (fun _ P => P.mAddFraction W F₁ F₂ l r) (p.mAddFraction W F₁ F₂ l r)
    (fun ms => ∃ ns, ms = .arith .minus :: .arith .plus :: ns ∧
      ns <+ [.arith .minus, .arith .plus]) :=
  (ofFraction _ _ _ _).bind (fun _ => mAdd _ _ _ _ _ _) fun _ _ h1 ⟨ns, h2, h3⟩ =>
    ⟨ns, by rw [h1, h2]; rfl, h3⟩

theorem mAddWhole (W₁ F W₂ : IntTy) (l : Mixed) (r : ℤ) :
    p.Calls (fun _ P => P.mAddWhole W₁ F W₂ l r) (p.mAddWhole W₁ F W₂ l r)
    (· <+ [.arith .minus, .arith .plus]) :=
  after fun _ => after fun _ => after fun _ => mk' _ _ _ _

/-! ### Floating point and durations -/

theorem scanValue (r : Parse.Scan) : p.Calls (fun _ P => P.scanValue T r) (p.scanValue T r)
    (· = [.arith .plus, .arith .multiplies]) :=
  after fun _ => after fun _ => after fun _ => after fun _ => after fun _ => after fun _ =>
    after fun _ => (fArith _ _ .plus _).seq (bs := [.arith .multiplies]) fun _ =>
      after fun _ => fArith _ _ .multiplies _

theorem assemble (bias den : ℤ) (s e m : ℕ) :
    p.Calls (fun _ P => P.assemble T bias den s e m) (p.assemble T bias den s e m)
    (· = [.arith .plus, .arith .multiplies, .arith .multiplies]) :=
  after fun _ => after fun _ => after fun _ => after fun _ =>
    (fArith _ _ .plus _).seq (bs := [.arith .multiplies, .arith .multiplies]) fun _ =>
      (fArith _ _ .multiplies _).seq (bs := [.arith .multiplies]) fun _ =>
        after fun _ => fArith _ _ .multiplies _

theorem ofString (string : List Char) : p.Calls (fun _ P => P.ofString T string)
    (p.ofString T string) (fun ms => ms = [] ∨ ms = [.arith .plus, .arith .multiplies]) := by
  refine after fun r => ?_
  cases r with
  | none => exact (pure _).imp fun _ h => .inl h
  | some r => exact (scanValue r).imp fun _ h => .inr h

theorem ofFloat (E : FloatingPoint.Endian) (F : Fmt) (bits : ℕ) :
    p.Calls (fun _ P => P.ofFloat E F T bits) (p.ofFloat E F T bits)
    (fun ms => ms = [] ∨ ms = [.arith .plus, .arith .multiplies, .arith .multiplies]) :=
  after fun _ => after fun _ => after fun _ => after fun _ => after fun _ => after fun _ =>
    after fun _ => ite (fun _ => (pure _).imp fun _ h => .inl h) fun _ =>
      (assemble _ _ _ _ _).imp fun _ h => .inr h

theorem durationCast {A B : Chrono.Period} {n d : ℤ} (h : Chrono.ratioDivide A B = some (n, d))
    (c : Chrono.Count) : p.Calls (fun _ P => P.durationCast T A B c) (p.durationCast T A B c)
    (· = (if n = 1 then [] else [.arith .multiplies]) ++ if d = 1 then [] else [.arith .divides]) := by
  simp only [SPolicy.durationCast, Policy.durationCast, h]
  refine after fun x => ?_
  refine ite (fun hc => ?_) fun h1 => ite (fun hc => ?_) fun h2 => ite (fun hc => ?_) fun h3 => ?_
  · rw [if_pos hc.1, if_pos hc.2]; exact pure _
  · rw [if_pos hc, if_neg fun h => h1 ⟨h, hc⟩]; exact after fun _ => fArith _ _ _ _
  · rw [if_pos hc, if_neg h2]; exact after fun _ => fArith _ _ _ _
  · rw [if_neg h2, if_neg h3]
    exact after fun _ => (fArith _ _ .multiplies _).seq (bs := [.arith .divides]) fun _ =>
      after fun _ => fArith _ _ _ _

theorem durationCast_none {A B : Chrono.Period} (h : Chrono.ratioDivide A B = none)
    (c : Chrono.Count) : p.Calls (fun _ P => P.durationCast T A B c) (p.durationCast T A B c)
    (· = []) := by
  simp only [SPolicy.durationCast, Policy.durationCast, h]
  exact lift _

/-! ### Expressions and sequences -/

theorem eval : ∀ e : Expr, p.Calls (fun _ P => P.eval T e) (p.eval T e) (· = e.members)
  | .lit f => pure f
  | .neg e => (eval e).seq fun v => fNeg v
  | .pos e => by
    have := (eval e).seq (bs := []) fun v => (pure (Fraction.pos v) : p.Calls _ _ _)
    rw [List.append_nil] at this
    exact this
  | .ff op l r => by
    rw [Expr.members, List.append_assoc]
    exact (eval l).seq fun a => (eval r).seq fun b => fArith T T op (.ff a b)
  | .fr op e n => (eval e).seq fun v => fArith T T op (.fr v n)
  | .rf op n e => (eval e).seq fun v => fArith T T op (.rf n v)

theorem step (left : Raw) (a : Assign) :
    p.Calls (fun _ P => P.step T left a) (p.step T left a) (· = [a.member]) := by
  cases a with
  | frac op r => exact assignF _ _ _ _ _
  | int op r => exact assignR _ _ _ _ _

theorem run (l : List Assign) : ∀ left : Raw,
    p.Calls (fun _ P => P.run T left l) (p.run T left l) (· = l.map Assign.member) := by
  induction l with
  | nil => exact fun left => pure left
  | cons a l ih => exact fun left => (step left a).seq fun left' => ih left'

theorem mEval : ∀ e : MExpr, p.Calls (fun _ P => P.mEval e) (p.mEval e) (fun _ => True)
  | .dflt _ _ => (pure _).imp fun _ _ => trivial
  | .mk W F w f => (mk' W F w f).imp fun _ _ => trivial
  | .ofFraction W F S f => (ofFraction W F S f).imp fun _ _ => trivial
  | .pos e => (mEval e).bind (fun _ => pure _) fun _ _ _ _ => trivial
  | .neg e => (mEval e).bind (fun _ => mNeg _ _ _) fun _ _ _ _ => trivial
  | .add l r => (mEval l).bind (B := fun _ => True) (fun _ => (mEval r).bind
      (fun _ => mAdd _ _ _ _ _ _) fun _ _ _ _ => trivial) fun _ _ _ _ => trivial
  | .addFraction e S f => (mEval e).bind (fun _ => mAddFraction _ _ _ _ _) fun _ _ _ _ => trivial
  | .addWhole e S n => (mEval e).bind (fun _ => mAddWhole _ _ _ _ _) fun _ _ _ _ => trivial

/-! ### Wrappers -/

theorem wrap_negate (ws : List (Bool × ReduceMode)) : ∀ v : Raw,
    p.Calls (fun _ P => (P.wrap ws).negate T v) ((p.wrap ws).negate T v) (· = [.negate]) := by
  induction ws with
  | nil => exact negate
  | cons w ws ih =>
    obtain ⟨b, mode⟩ := w
    intro v
    cases b with
    | true => exact after fun _ => ih _
    | false => exact (ih v).seq (bs := []) fun _ => lift _

theorem wrap_arith (ws : List (Bool × ReduceMode)) : ∀ (op : ArithOp) (a : Args),
    p.Calls (fun _ P => (P.wrap ws).arith T op a) ((p.wrap ws).arith T op a) (· = [.arith op]) := by
  induction ws with
  | nil => exact arith
  | cons w ws ih =>
    obtain ⟨b, mode⟩ := w
    intro op a
    cases b with
    | true => exact after fun _ => ih _ _
    | false => exact (ih op a).seq (bs := []) fun _ => lift _

theorem wrap_cmp (ws : List (Bool × ReduceMode)) : ∀ (op : CmpOp) (a : Args),
    p.Calls (fun _ P => (P.wrap ws).cmp T op a) ((p.wrap ws).cmp T op a) (· = [.cmp op]) := by
  induction ws with
  | nil => exact cmp
  | cons w ws ih =>
    obtain ⟨b, mode⟩ := w
    intro op a
    cases b with
    | true => exact after fun _ => ih _ _
    | false => exact ih op a

end Policy.Calls

/-! ## Any order -/

theorem Shuffle.nil_left {α : Type} {a b : List α} (h : Shuffle [] a b) : a = b := by
  generalize hn : ([] : List α) = n at h
  induction h with
  | nil => rfl
  | left => cases hn
  | right _ ih => rw [ih hn]

theorem Shuffle.nil_right {α : Type} {a b : List α} (h : Shuffle a [] b) : a = b := by
  generalize hn : ([] : List α) = n at h
  induction h with
  | nil => rfl
  | left _ ih => rw [ih hn]
  | right => cases hn

theorem Shuffle.of_nil {α : Type} : ∀ a : List α, Shuffle a [] a
  | [] => .nil
  | _ :: a => .left (of_nil a)

theorem Shuffle.append {α : Type} : ∀ a b : List α, Shuffle a b (a ++ b)
  | [], [] => .nil
  | [], x :: b => .right (append [] b)
  | x :: a, b => .left (append a b)

theorem Shuffle.perm {α : Type} {a b c : List α} (h : Shuffle a b c) : c.Perm (a ++ b) := by
  induction h with
  | nil => rfl
  | left _ ih => exact ih.cons _
  | right _ ih => exact (ih.cons _).trans List.perm_middle.symm

/-- One call of the policy, labelled. -/
inductive LStep (p : Policy) (T : IntTy) : Expr → Option Call → Expr → Bool → Prop
  | neg {v r w} : p.negate T v = .ok r w → LStep p T (.neg (.lit v)) (some (.negate T v)) (.lit r) w
  | pos {v} : LStep p T (.pos (.lit v)) none (.lit v) false
  | ff {op a b r w} : p.arith T op (.ff a b) = .ok r w →
      LStep p T (.ff op (.lit a) (.lit b)) (some (.arith T op (.ff a b))) (.lit r) w
  | fr {op a n r w} : p.arith T op (.fr a n) = .ok r w →
      LStep p T (.fr op (.lit a) n) (some (.arith T op (.fr a n))) (.lit r) w
  | rf {op a n r w} : p.arith T op (.rf n a) = .ok r w →
      LStep p T (.rf op n (.lit a)) (some (.arith T op (.rf n a))) (.lit r) w
  | inNeg {e e' d w} : LStep p T e d e' w → LStep p T (.neg e) d (.neg e') w
  | inPos {e e' d w} : LStep p T e d e' w → LStep p T (.pos e) d (.pos e') w
  | inLeft {op e e' f d w} : LStep p T e d e' w → LStep p T (.ff op e f) d (.ff op e' f) w
  | inRight {op e e' f d w} : LStep p T e d e' w → LStep p T (.ff op f e) d (.ff op f e') w
  | inFr {op e e' n d w} : LStep p T e d e' w → LStep p T (.fr op e n) d (.fr op e' n) w
  | inRf {op e e' n d w} : LStep p T e d e' w → LStep p T (.rf op n e) d (.rf op n e') w

/-- Any number of calls. -/
inductive LSteps (p : Policy) (T : IntTy) : ℕ → Expr → List Call → Expr → Bool → Prop
  | done {e} : LSteps p T 0 e [] e false
  | step {n e d e' cs e'' w w'} : LStep p T e d e' w → LSteps p T n e' cs e'' w' →
      LSteps p T (n + 1) e (d.toList ++ cs) e'' (w || w')

namespace LSteps

variable {n m : ℕ} {e e' e'' l l' r r' : Expr} {cs ds es : List Call} {w w' : Bool}

theorem trans (h : LSteps p T n e cs e' w) (h' : LSteps p T m e' ds e'' w') :
    LSteps p T (n + m) e (cs ++ ds) e'' (w || w') := by
  induction h with
  | done => simpa using h'
  | step h _ ih =>
    have := LSteps.step h (ih h')
    rw [List.append_assoc, Bool.or_assoc, Nat.add_right_comm]
    exact this

theorem cong {c : Expr → Expr} (hc : ∀ {e d e' w}, LStep p T e d e' w → LStep p T (c e) d (c e') w)
    (h : LSteps p T n e cs e' w) : LSteps p T n (c e) cs (c e') w := by
  induction h with
  | done => exact .done
  | step h _ ih => exact .step (hc h) ih

theorem both (op : ArithOp) : ∀ {N n m : ℕ} {l l' r r' : Expr} {cs ds es : List Call} {w w' : Bool},
    n + m = N → LSteps p T n l cs l' w → LSteps p T m r ds r' w' → Shuffle cs ds es →
    ∃ w'', LSteps p T N (.ff op l r) es (.ff op l' r') w'' ∧ w'' = (w || w') := by
  intro N
  induction N with
  | zero =>
    intro n m l l' r r' cs ds es w w' hn h1 h2 h3
    obtain rfl : n = 0 := by omega
    obtain rfl : m = 0 := by omega
    cases h1
    cases h2
    cases h3
    exact ⟨_, .done, rfl⟩
  | succ N ih =>
    intro n m l l' r r' cs ds es w w' hn h1 h2 h3
    have h1' := h1
    have h2' := h2
    cases h1 with
    | done =>
      rw [← h3.nil_left]
      obtain rfl : m = N + 1 := by omega
      exact ⟨_, h2.cong .inRight, by simp⟩
    | @step n _ d l1 cs1 _ w1 w2 hs hr =>
      cases d with
      | none =>
        obtain ⟨w3, h4, rfl⟩ := ih (by omega) hr h2 h3
        exact ⟨_, .step (.inLeft hs) h4, by rw [Bool.or_assoc]⟩
      | some c =>
        cases h2 with
        | done =>
          rw [← h3.nil_right]
          obtain rfl : n = N := by omega
          exact ⟨_, h1'.cong (c := fun e => .ff op e _) .inLeft, by simp⟩
        | @step m _ d' r1 ds1 _ w3 w4 hs' hr' =>
          cases d' with
          | none =>
            obtain ⟨w5, h4, rfl⟩ := ih (by omega) h1' hr' h3
            exact ⟨_, .step (.inRight hs') h4, by simp [Bool.or_left_comm, Bool.or_assoc]⟩
          | some c' =>
            cases h3 with
            | left h3 =>
              obtain ⟨w5, h4, rfl⟩ := ih (by omega) hr h2' h3
              exact ⟨_, .step (.inLeft hs) h4, by simp [Bool.or_assoc]⟩
            | right h3 =>
              obtain ⟨w5, h4, rfl⟩ := ih (by omega) h1' hr' h3
              exact ⟨_, .step (.inRight hs') h4, by simp [Bool.or_left_comm, Bool.or_assoc]⟩

end LSteps

theorem Policy.Traced.lsteps {e : Expr} {r : Raw} {w : Bool} {cs : List Call}
    (h : p.Traced T e r w cs) : ∃ n, LSteps p T n e cs (.lit r) w := by
  induction h with
  | lit => exact ⟨0, .done⟩
  | neg _ hc ih =>
    obtain ⟨n, h⟩ := ih
    have := (h.cong (c := .neg) .inNeg).trans (.step (.neg hc) .done)
    simp only [Option.toList_some, List.append_nil, Bool.or_false] at this
    exact ⟨_, this⟩
  | pos _ ih =>
    obtain ⟨n, h⟩ := ih
    have := (h.cong (c := .pos) .inPos).trans (.step .pos .done)
    simp only [Option.toList_none, List.append_nil, Bool.or_false] at this
    exact ⟨_, this⟩
  | ff _ _ hs hc ih1 ih2 =>
    obtain ⟨n, h1⟩ := ih1
    obtain ⟨m, h2⟩ := ih2
    obtain ⟨w, h3, rfl⟩ := LSteps.both _ rfl h1 h2 hs
    have := h3.trans (.step (.ff hc) .done)
    simp only [Option.toList_some, List.append_nil, Bool.or_false] at this
    exact ⟨_, this⟩
  | fr _ hc ih =>
    obtain ⟨n, h⟩ := ih
    have := (h.cong (c := fun e => .fr _ e _) .inFr).trans (.step (.fr hc) .done)
    simp only [Option.toList_some, List.append_nil, Bool.or_false] at this
    exact ⟨_, this⟩
  | rf _ hc ih =>
    obtain ⟨n, h⟩ := ih
    have := (h.cong (c := .rf _ _) .inRf).trans (.step (.rf hc) .done)
    simp only [Option.toList_some, List.append_nil, Bool.or_false] at this
    exact ⟨_, this⟩

theorem LStep.traced {e e' : Expr} {d : Option Call} {w : Bool} (h : LStep p T e d e' w) :
    ∀ {r w' cs}, p.Traced T e' r w' cs → p.Traced T e r (w || w') (d.toList ++ cs) := by
  induction h with
  | neg h => rintro r w' cs ⟨⟩; simpa using Policy.Traced.neg .lit h
  | pos => rintro r w' cs ⟨⟩; simpa using Policy.Traced.pos .lit
  | ff h => rintro r w' cs ⟨⟩; simpa using Policy.Traced.ff .lit .lit .nil h
  | fr h => rintro r w' cs ⟨⟩; simpa using Policy.Traced.fr .lit h
  | rf h => rintro r w' cs ⟨⟩; simpa using Policy.Traced.rf .lit h
  | inNeg _ ih =>
    rintro r w' cs (_ | ⟨h, hc⟩)
    rw [← Bool.or_assoc, ← List.append_assoc]
    exact .neg (ih h) hc
  | inPos _ ih =>
    rintro r w' cs (_ | _ | ⟨h⟩)
    exact .pos (ih h)
  | @inLeft op e e' f d w _ ih =>
    rintro r w' cs (_ | _ | _ | ⟨h1, h2, hs, hc⟩)
    rw [← Bool.or_assoc, ← Bool.or_assoc, ← List.append_assoc]
    refine .ff (ih h1) h2 ?_ hc
    cases d with
    | none => exact hs
    | some c => exact .left hs
  | @inRight op e e' f d w _ ih =>
    rintro r w' cs (_ | _ | _ | @⟨_, _, _, _, _, _, w1, w2, w3, _, _, _, h1, h2, hs, hc⟩)
    have hw : (w || (w1 || w2 || w3)) = (w1 || (w || w2) || w3) := by
      cases w <;> cases w1 <;> cases w2 <;> rfl
    rw [hw, ← List.append_assoc]
    refine .ff h1 (ih h2) ?_ hc
    cases d with
    | none => exact hs
    | some c => exact .right hs
  | inFr _ ih =>
    rintro r w' cs (_ | _ | _ | _ | ⟨h, hc⟩)
    rw [← Bool.or_assoc, ← List.append_assoc]
    exact .fr (ih h) hc
  | inRf _ ih =>
    rintro r w' cs (_ | _ | _ | _ | _ | ⟨h, hc⟩)
    rw [← Bool.or_assoc, ← List.append_assoc]
    exact .rf (ih h) hc

theorem LSteps.traced {n : ℕ} {e : Expr} {r : Raw} {w : Bool} {cs : List Call}
    (h : LSteps p T n e cs (.lit r) w) : p.Traced T e r w cs := by
  generalize hx : Expr.lit r = x at h
  induction h with
  | done => subst hx; exact .lit
  | step h _ ih => exact h.traced (ih hx)

namespace SPolicy

variable {σ : Type} {P : SPolicy σ} {note : σ → Call → σ} {e e' : Expr} {s s' : σ} {w : Bool} {r : Raw}

theorem fArith_self (op : ArithOp) (a : Args) : P.fArith T T op a = P.arith T op a := by
  funext s
  show (liftM (Fraction.toCommon T T a) >>= fun a' => P.arith (IntTy.common T T) op a') s = _
  rw [Fraction.toCommon_self, IntTy.common_self]
  show ((Res.ok a false >>= fun a => Pure.pure (a, s)) >>= fun r => P.arith T op r.1 r.2) = _
  simp only [ok_bind_false, pure_bind]

theorem note_ok {y : Res α} {t : σ} {a : α} (h : (do return (← y, t)) = Res.ok (a, s') w) :
    y = .ok a w ∧ s' = t := by
  obtain ⟨b, w1, w2, h1, h2, rfl⟩ := bind_eq_ok.1 h
  obtain ⟨h2, rfl⟩ := pure_eq_ok.1 h2
  cases h2
  rw [Bool.or_false]
  exact ⟨h1, rfl⟩

theorem ok_note {y : Res α} {t : σ} {a : α} (h : y = .ok a w) :
    (do return (← y, t)) = Res.ok (a, t) w :=
  bind_eq_ok.2 ⟨a, w, false, h, rfl, by rw [Bool.or_false]⟩

theorem Step.labelled (hP : P.Observes p note) (h : P.Step T e s e' s' w) :
    ∃ d : Option Call, LStep p T e d e' w ∧ s' = d.toList.foldl note s := by
  induction h with
  | neg h =>
    rw [fNeg, hP.negate] at h
    obtain ⟨h', rfl⟩ := note_ok h
    exact ⟨_, .neg h', rfl⟩
  | pos => exact ⟨none, .pos, rfl⟩
  | ff h =>
    rw [fArith_self, hP.arith] at h
    obtain ⟨h', rfl⟩ := note_ok h
    exact ⟨_, .ff h', rfl⟩
  | fr h =>
    rw [fArith_self, hP.arith] at h
    obtain ⟨h', rfl⟩ := note_ok h
    exact ⟨_, .fr h', rfl⟩
  | rf h =>
    rw [fArith_self, hP.arith] at h
    obtain ⟨h', rfl⟩ := note_ok h
    exact ⟨_, .rf h', rfl⟩
  | inNeg _ ih => obtain ⟨d, h, rfl⟩ := ih; exact ⟨d, .inNeg h, rfl⟩
  | inPos _ ih => obtain ⟨d, h, rfl⟩ := ih; exact ⟨d, .inPos h, rfl⟩
  | inLeft _ ih => obtain ⟨d, h, rfl⟩ := ih; exact ⟨d, .inLeft h, rfl⟩
  | inRight _ ih => obtain ⟨d, h, rfl⟩ := ih; exact ⟨d, .inRight h, rfl⟩
  | inFr _ ih => obtain ⟨d, h, rfl⟩ := ih; exact ⟨d, .inFr h, rfl⟩
  | inRf _ ih => obtain ⟨d, h, rfl⟩ := ih; exact ⟨d, .inRf h, rfl⟩

theorem _root_.Ieme.LStep.step {d : Option Call} (hP : P.Observes p note) (h : LStep p T e d e' w) :
    P.Step T e s e' (d.toList.foldl note s) w := by
  induction h with
  | neg h => exact .neg (by rw [fNeg, hP.negate]; exact ok_note h)
  | pos => exact .pos
  | ff h => exact .ff (by rw [fArith_self, hP.arith]; exact ok_note h)
  | fr h => exact .fr (by rw [fArith_self, hP.arith]; exact ok_note h)
  | rf h => exact .rf (by rw [fArith_self, hP.arith]; exact ok_note h)
  | inNeg _ ih => exact .inNeg ih
  | inPos _ ih => exact .inPos ih
  | inLeft _ ih => exact .inLeft ih
  | inRight _ ih => exact .inRight ih
  | inFr _ ih => exact .inFr ih
  | inRf _ ih => exact .inRf ih

theorem Steps.labelled (hP : P.Observes p note) (h : P.Steps T e s e' s' w) :
    ∃ n cs, LSteps p T n e cs e' w ∧ s' = cs.foldl note s := by
  induction h with
  | done => exact ⟨0, [], .done, rfl⟩
  | step h _ ih =>
    obtain ⟨d, h1, rfl⟩ := h.labelled hP
    obtain ⟨n, cs, h2, rfl⟩ := ih
    exact ⟨_, _, .step h1 h2, by rw [List.foldl_append]⟩

theorem _root_.Ieme.LSteps.steps {n : ℕ} {cs : List Call} (hP : P.Observes p note)
    (h : LSteps p T n e cs e' w) : ∀ s, P.Steps T e s e' (cs.foldl note s) w := by
  induction h with
  | done => exact fun s => .done
  | step h _ ih =>
    intro s
    rw [List.foldl_append]
    exact .step (h.step hP) (ih _)

theorem steps_iff (hP : P.Observes p note) :
    P.Steps T e s (.lit r) s' w ↔ ∃ cs, p.Traced T e r w cs ∧ s' = cs.foldl note s := by
  constructor
  · intro h
    obtain ⟨n, cs, h1, h2⟩ := h.labelled hP
    exact ⟨cs, h1.traced, h2⟩
  · rintro ⟨cs, h, rfl⟩
    obtain ⟨n, h⟩ := h.lsteps
    exact h.steps hP s

theorem Step.operators (h : P.Step T e s e' s' w) : e.operators = e'.operators + 1 := by
  induction h <;> simp_all [Expr.operators] <;> omega

theorem Steps.trans {e'' : Expr} {s'' : σ} {w' : Bool} (h : P.Steps T e s e' s' w)
    (h' : P.Steps T e' s' e'' s'' w') : P.Steps T e s e'' s'' (w || w') := by
  induction h with
  | done => simpa using h'
  | step h _ ih => rw [Bool.or_assoc]; exact .step h (ih h')

theorem Steps.cong {c : Expr → Expr}
    (hc : ∀ {e s e' s' w}, P.Step T e s e' s' w → P.Step T (c e) s (c e') s' w)
    (h : P.Steps T e s e' s' w) : P.Steps T (c e) s (c e') s' w := by
  induction h with
  | done => exact .done
  | step h _ ih => exact .step (hc h) ih

theorem Steps.one (h : P.Step T e s e' s' w) : P.Steps T e s e' s' w := by
  have := Steps.step h .done
  rwa [Bool.or_false] at this

theorem bind_ok {x : Act σ α} {f : α → Act σ β} {b : β} (h : (x >>= f) s = .ok (b, s') w) :
    ∃ a t w₁ w₂, x s = .ok (a, t) w₁ ∧ f a t = .ok (b, s') w₂ ∧ w = (w₁ || w₂) := by
  obtain ⟨⟨a, t⟩, w1, w2, h1, h2, h3⟩ := bind_eq_ok.1 (show (x s >>= fun r => f r.1 r.2) = _ from h)
  exact ⟨a, t, w1, w2, h1, h2, h3⟩

theorem eval_steps : ∀ {e : Expr} {s s' : σ} {r : Raw} {w : Bool},
    P.eval T e s = .ok (r, s') w → P.Steps T e s (.lit r) s' w
  | .lit f, s, s', r, w, h => by
    obtain ⟨h, rfl⟩ := pure_eq_ok.1 (show (Pure.pure (f, s) : Res _) = _ from h)
    cases h
    exact .done
  | .neg e, s, s', r, w, h => by
    obtain ⟨a, t, w1, w2, h1, h2, rfl⟩ := bind_ok h
    exact ((eval_steps h1).cong (c := .neg) .inNeg).trans (.one (.neg h2))
  | .pos e, s, s', r, w, h => by
    obtain ⟨a, t, w1, w2, h1, h2, rfl⟩ := bind_ok h
    obtain ⟨h2, rfl⟩ := pure_eq_ok.1 (show (Pure.pure (Fraction.pos a, t) : Res _) = _ from h2)
    cases h2
    exact ((eval_steps h1).cong (c := .pos) .inPos).trans (.one .pos)
  | .ff op l m, s, s', r, w, h => by
    obtain ⟨a, t, w1, w2, h1, h2, rfl⟩ := bind_ok h
    obtain ⟨b, u, w3, w4, h3, h4, rfl⟩ := bind_ok h2
    exact ((eval_steps h1).cong (c := fun e => .ff op e m) .inLeft).trans
      (((eval_steps h3).cong (c := .ff op (.lit a)) .inRight).trans (.one (.ff h4)))
  | .fr op e n, s, s', r, w, h => by
    obtain ⟨a, t, w1, w2, h1, h2, rfl⟩ := bind_ok h
    exact ((eval_steps h1).cong (c := fun e => .fr op e n) .inFr).trans (.one (.fr h2))
  | .rf op n e, s, s', r, w, h => by
    obtain ⟨a, t, w1, w2, h1, h2, rfl⟩ := bind_ok h
    exact ((eval_steps h1).cong (c := .rf op n) .inRf).trans (.one (.rf h2))

end SPolicy

namespace Policy.Traced

variable {e : Expr} {r r' : Raw} {w w' : Bool} {cs cs' : List Call}

theorem eval (h : p.Traced T e r w cs) : p.eval T e = .ok r w := by
  induction h with
  | lit => rfl
  | neg _ hc ih => exact bind_eq_ok.2 ⟨_, _, _, ih, hc, rfl⟩
  | pos _ ih => exact bind_eq_ok.2 ⟨_, _, false, ih, rfl, by rw [Bool.or_false]⟩
  | ff _ _ _ hc ih1 ih2 =>
    refine bind_eq_ok.2 ⟨_, _, _, ih1, bind_eq_ok.2 ⟨_, _, _, ih2, ?_, rfl⟩, Bool.or_assoc _ _ _⟩
    rw [fArith_self]; exact hc
  | fr _ hc ih => exact bind_eq_ok.2 ⟨_, _, _, ih, by rw [fArith_self]; exact hc, rfl⟩
  | rf _ hc ih => exact bind_eq_ok.2 ⟨_, _, _, ih, by rw [fArith_self]; exact hc, rfl⟩

theorem exists_of_eval : ∀ {e : Expr} {r : Raw} {w : Bool}, p.eval T e = .ok r w →
    ∃ cs, p.Traced T e r w cs
  | .lit f, r, w, h => by obtain ⟨rfl, rfl⟩ := pure_eq_ok.1 h; exact ⟨_, .lit⟩
  | .neg e, r, w, h => by
    obtain ⟨a, w1, w2, h1, h2, rfl⟩ := bind_eq_ok.1 h
    obtain ⟨cs, h3⟩ := exists_of_eval h1
    exact ⟨_, .neg h3 h2⟩
  | .pos e, r, w, h => by
    obtain ⟨a, w1, w2, h1, h2, rfl⟩ := bind_eq_ok.1 h
    obtain ⟨cs, h3⟩ := exists_of_eval h1
    obtain ⟨rfl, rfl⟩ := pure_eq_ok.1 h2
    rw [Bool.or_false]
    exact ⟨_, .pos h3⟩
  | .ff op l m, r, w, h => by
    obtain ⟨a, w1, w2, h1, h2, rfl⟩ := bind_eq_ok.1 h
    obtain ⟨b, w3, w4, h3, h4, rfl⟩ := bind_eq_ok.1 h2
    obtain ⟨cs, h5⟩ := exists_of_eval h1
    obtain ⟨ds, h6⟩ := exists_of_eval h3
    rw [fArith_self] at h4
    rw [← Bool.or_assoc]
    exact ⟨_, .ff h5 h6 (.append _ _) h4⟩
  | .fr op e n, r, w, h => by
    obtain ⟨a, w1, w2, h1, h2, rfl⟩ := bind_eq_ok.1 h
    obtain ⟨cs, h3⟩ := exists_of_eval h1
    rw [fArith_self] at h2
    exact ⟨_, .fr h3 h2⟩
  | .rf op n e, r, w, h => by
    obtain ⟨a, w1, w2, h1, h2, rfl⟩ := bind_eq_ok.1 h
    obtain ⟨cs, h3⟩ := exists_of_eval h1
    rw [fArith_self] at h2
    exact ⟨_, .rf h3 h2⟩

theorem members (h : p.Traced T e r w cs) : (cs.map Call.member).Perm e.members := by
  induction h with
  | lit => rfl
  | neg _ _ ih => rw [List.map_append]; exact ih.append_right _
  | pos _ ih => exact ih
  | ff _ _ hs _ ih1 ih2 =>
    rw [List.map_append]
    refine List.Perm.append_right _ (((hs.perm).map _).trans ?_)
    rw [List.map_append]
    exact ih1.append ih2
  | fr _ _ ih => rw [List.map_append]; exact ih.append_right _
  | rf _ _ ih => rw [List.map_append]; exact ih.append_right _

theorem perm : ∀ {e : Expr} {r r' : Raw} {w w' : Bool} {cs cs' : List Call}, p.Traced T e r w cs →
    p.Traced T e r' w' cs' → cs.Perm cs' := by
  have det : ∀ {e : Expr} {r r' : Raw} {w w' : Bool} {cs cs' : List Call}, p.Traced T e r w cs →
      p.Traced T e r' w' cs' → r = r' := by
    intro e r r' w w' cs cs' h h'
    have h1 := h.eval
    rw [h'.eval] at h1
    cases h1
    rfl
  intro e r r' w w' cs cs' h
  induction h generalizing r' w' cs' with
  | lit => rintro ⟨⟩; rfl
  | neg h _ ih => rintro (_ | ⟨h', _⟩); rw [det h h']; exact (ih h').append_right _
  | pos h ih => rintro (_ | _ | ⟨h'⟩); exact ih h'
  | ff h1 h2 hs _ ih1 ih2 =>
    rintro (_ | _ | _ | ⟨h1', h2', hs', _⟩)
    rw [det h1 h1', det h2 h2']
    exact List.Perm.append_right _ (hs.perm.trans (((ih1 h1').append (ih2 h2')).trans hs'.perm.symm))
  | fr h _ ih =>
    rintro (_ | _ | _ | _ | ⟨h', _⟩); rw [det h h']; exact (ih h').append_right _
  | rf h _ ih =>
    rintro (_ | _ | _ | _ | _ | ⟨h', _⟩); rw [det h h']; exact (ih h').append_right _

end Policy.Traced

theorem LStep.progress : ∀ {e : Expr} {r : Raw} {w : Bool}, p.eval T e = .ok r w →
    e = .lit r ∨ ∃ d e' w', LStep p T e d e' w'
  | .lit f, r, w, h => by obtain ⟨rfl, -⟩ := pure_eq_ok.1 h; exact .inl rfl
  | .neg e, r, w, h => by
    obtain ⟨a, w1, w2, h1, h2, rfl⟩ := bind_eq_ok.1 h
    rcases progress h1 with rfl | ⟨d, e', w', h3⟩
    · exact .inr ⟨_, _, _, .neg h2⟩
    · exact .inr ⟨_, _, _, .inNeg h3⟩
  | .pos e, r, w, h => by
    obtain ⟨a, w1, w2, h1, h2, rfl⟩ := bind_eq_ok.1 h
    rcases progress h1 with rfl | ⟨d, e', w', h3⟩
    · exact .inr ⟨_, _, _, .pos⟩
    · exact .inr ⟨_, _, _, .inPos h3⟩
  | .ff op l m, r, w, h => by
    obtain ⟨a, w1, w2, h1, h2, rfl⟩ := bind_eq_ok.1 h
    obtain ⟨b, w3, w4, h3, h4, rfl⟩ := bind_eq_ok.1 h2
    rcases progress h1 with rfl | ⟨d, e', w', h5⟩
    · rcases progress h3 with rfl | ⟨d, e', w', h5⟩
      · rw [Policy.fArith_self] at h4
        exact .inr ⟨_, _, _, .ff h4⟩
      · exact .inr ⟨_, _, _, .inRight h5⟩
    · exact .inr ⟨_, _, _, .inLeft h5⟩
  | .fr op e n, r, w, h => by
    obtain ⟨a, w1, w2, h1, h2, rfl⟩ := bind_eq_ok.1 h
    rcases progress h1 with rfl | ⟨d, e', w', h3⟩
    · rw [Policy.fArith_self] at h2
      exact .inr ⟨_, _, _, .fr h2⟩
    · exact .inr ⟨_, _, _, .inFr h3⟩
  | .rf op n e, r, w, h => by
    obtain ⟨a, w1, w2, h1, h2, rfl⟩ := bind_eq_ok.1 h
    rcases progress h1 with rfl | ⟨d, e', w', h3⟩
    · rw [Policy.fArith_self] at h2
      exact .inr ⟨_, _, _, .rf h2⟩
    · exact .inr ⟨_, _, _, .inRf h3⟩

theorem LStep.eval {e e' : Expr} {d : Option Call} {w₁ : Bool} (h : LStep p T e d e' w₁) :
    ∀ {r w}, p.eval T e = .ok r w → ∃ w₂, p.eval T e' = .ok r w₂ ∧ w = (w₁ || w₂) := by
  have last : ∀ {r r' : Raw} {w w' : Bool}, (Res.ok r' w' : Res Raw) = .ok r w →
      ∃ w₂, p.eval T (.lit r') = .ok r w₂ ∧ w = (w' || w₂) := by
    rintro r r' w w' ⟨⟩
    exact ⟨false, rfl, by rw [Bool.or_false]⟩
  have one : ∀ {f : Raw} {k : Raw → Res Raw} {y z : Res Raw}, k f = y → (Pure.pure f >>= k) = z →
      y = z := by
    intro f k y z h1 h2
    rwa [pure_bind, h1] at h2
  induction h with
  | neg h => intro r w h1; exact last (one h h1)
  | pos => intro r w h1; exact last (one rfl h1)
  | ff h =>
    intro r w h1
    rw [Policy.eval, Policy.eval, Policy.eval, pure_bind, pure_bind, Policy.fArith_self, h] at h1
    exact last h1
  | fr h => intro r w h1; exact last (one (by rw [Policy.fArith_self]; exact h) h1)
  | rf h => intro r w h1; exact last (one (by rw [Policy.fArith_self]; exact h) h1)
  | inNeg _ ih =>
    intro r w h0
    obtain ⟨a, w1, w2, h1, h2, rfl⟩ := bind_eq_ok.1 h0
    obtain ⟨w3, h3, rfl⟩ := ih h1
    exact ⟨_, bind_eq_ok.2 ⟨_, _, _, h3, h2, rfl⟩, by rw [Bool.or_assoc]⟩
  | inPos _ ih =>
    intro r w h0
    obtain ⟨a, w1, w2, h1, h2, rfl⟩ := bind_eq_ok.1 h0
    obtain ⟨w3, h3, rfl⟩ := ih h1
    exact ⟨_, bind_eq_ok.2 ⟨_, _, _, h3, h2, rfl⟩, by rw [Bool.or_assoc]⟩
  | inLeft _ ih =>
    intro r w h0
    obtain ⟨a, w1, w2, h1, h2, rfl⟩ := bind_eq_ok.1 h0
    obtain ⟨w3, h3, rfl⟩ := ih h1
    exact ⟨_, bind_eq_ok.2 ⟨_, _, _, h3, h2, rfl⟩, by rw [Bool.or_assoc]⟩
  | @inRight _ _ _ _ _ w₀ _ ih =>
    intro r w h0
    obtain ⟨a, w1, w2, h1, h2, rfl⟩ := bind_eq_ok.1 h0
    obtain ⟨b, w4, w5, h4, h5, rfl⟩ := bind_eq_ok.1 h2
    obtain ⟨w3, h3, rfl⟩ := ih h4
    refine ⟨_, bind_eq_ok.2 ⟨_, _, _, h1, bind_eq_ok.2 ⟨_, _, _, h3, h5, rfl⟩, rfl⟩, ?_⟩
    cases w1 <;> cases w₀ <;> rfl
  | inFr _ ih =>
    intro r w h0
    obtain ⟨a, w1, w2, h1, h2, rfl⟩ := bind_eq_ok.1 h0
    obtain ⟨w3, h3, rfl⟩ := ih h1
    exact ⟨_, bind_eq_ok.2 ⟨_, _, _, h3, h2, rfl⟩, by rw [Bool.or_assoc]⟩
  | inRf _ ih =>
    intro r w h0
    obtain ⟨a, w1, w2, h1, h2, rfl⟩ := bind_eq_ok.1 h0
    obtain ⟨w3, h3, rfl⟩ := ih h1
    exact ⟨_, bind_eq_ok.2 ⟨_, _, _, h3, h2, rfl⟩, by rw [Bool.or_assoc]⟩

theorem LSteps.eval {n : ℕ} {e e' : Expr} {cs : List Call} {w₁ : Bool} (h : LSteps p T n e cs e' w₁) :
    ∀ {r w}, p.eval T e = .ok r w → ∃ w₂, p.eval T e' = .ok r w₂ ∧ w = (w₁ || w₂) := by
  induction h with
  | done => exact fun h => ⟨_, h, rfl⟩
  | step h _ ih =>
    intro r w h1
    obtain ⟨w2, h2, rfl⟩ := h.eval h1
    obtain ⟨w3, h3, rfl⟩ := ih h2
    exact ⟨w3, h3, by rw [Bool.or_assoc]⟩

/-! ## Flags -/

namespace SPolicy.Flags

variable {σ : Type} {P : SPolicy σ} {bad : σ → Prop} {e e' : Expr} {s s' : σ} {w : Bool}

theorem litValue_denotes {f : Raw} {x : ℚ} : litValue f = some x ↔ Denotes f x := by
  unfold litValue Denotes
  split <;> simp_all

/-- A call that leaves the state good keeps the value of the expression. -/
theorem step (hP : P.Flags bad) (h : P.Step T e s e' s' w) (hb : ¬ bad s') : ∀ {q : ℚ},
    e.LeavesInRange T → e.value = some q → ¬ bad s ∧ e'.LeavesInRange T ∧ e'.value = some q := by
  induction h with
  | neg h =>
    intro q hr hv
    obtain ⟨h1, h2⟩ := hP.negate h hb
    simp only [Expr.value, Option.map_eq_some_iff, litValue_denotes] at hv ⊢
    obtain ⟨x, hx, rfl⟩ := hv
    exact ⟨h1, h2 x hr hx⟩
  | pos => exact fun hr hv => ⟨hb, hr, hv⟩
  | ff h =>
    intro q hr hv
    rw [fArith_self] at h
    obtain ⟨h1, h2⟩ := hP.arith h hb
    simp only [Expr.value, Option.bind_eq_some_iff, litValue_denotes] at hv ⊢
    obtain ⟨x, hx, y, hy, hq⟩ := hv
    exact ⟨h1, h2 x y q hr ⟨hx, hy⟩ hq⟩
  | fr h =>
    intro q hr hv
    rw [fArith_self] at h
    obtain ⟨h1, h2⟩ := hP.arith h hb
    simp only [Expr.value, Option.bind_eq_some_iff, litValue_denotes] at hv ⊢
    obtain ⟨x, hx, hq⟩ := hv
    exact ⟨h1, h2 x _ q hr ⟨hx, rfl⟩ hq⟩
  | rf h =>
    intro q hr hv
    rw [fArith_self] at h
    obtain ⟨h1, h2⟩ := hP.arith h hb
    simp only [Expr.value, Option.bind_eq_some_iff, litValue_denotes] at hv ⊢
    obtain ⟨x, hx, hq⟩ := hv
    exact ⟨h1, h2 _ x q hr ⟨rfl, hx⟩ hq⟩
  | inNeg _ ih =>
    intro q hr hv
    simp only [Expr.value, Option.map_eq_some_iff] at hv ⊢
    obtain ⟨x, hx, rfl⟩ := hv
    obtain ⟨h1, h2, h3⟩ := ih hb hr hx
    exact ⟨h1, h2, x, h3, rfl⟩
  | inPos _ ih => exact fun hr hv => ih hb hr hv
  | inLeft _ ih =>
    intro q hr hv
    simp only [Expr.value, Option.bind_eq_some_iff] at hv ⊢
    obtain ⟨x, hx, hv⟩ := hv
    obtain ⟨h1, h2, h3⟩ := ih hb hr.1 hx
    exact ⟨h1, ⟨h2, hr.2⟩, x, h3, hv⟩
  | inRight _ ih =>
    intro q hr hv
    simp only [Expr.value, Option.bind_eq_some_iff] at hv ⊢
    obtain ⟨x, hx, y, hy, hv⟩ := hv
    obtain ⟨h1, h2, h3⟩ := ih hb hr.2 hy
    exact ⟨h1, ⟨hr.1, h2⟩, x, hx, y, h3, hv⟩
  | inFr _ ih =>
    intro q hr hv
    simp only [Expr.value, Option.bind_eq_some_iff] at hv ⊢
    obtain ⟨x, hx, hv⟩ := hv
    obtain ⟨h1, h2, h3⟩ := ih hb hr.1 hx
    exact ⟨h1, ⟨h2, hr.2⟩, x, h3, hv⟩
  | inRf _ ih =>
    intro q hr hv
    simp only [Expr.value, Option.bind_eq_some_iff] at hv ⊢
    obtain ⟨x, hx, hv⟩ := hv
    obtain ⟨h1, h2, h3⟩ := ih hb hr.2 hx
    exact ⟨h1, ⟨hr.1, h2⟩, x, h3, hv⟩

/-- The state is bad once it is. -/
theorem step_bad (hP : P.Flags bad) (h : P.Step T e s e' s' w) (hb : ¬ bad s') : ¬ bad s := by
  induction h with
  | neg h => exact (hP.negate h hb).1
  | pos => exact hb
  | ff h => rw [fArith_self] at h; exact (hP.arith h hb).1
  | fr h => rw [fArith_self] at h; exact (hP.arith h hb).1
  | rf h => rw [fArith_self] at h; exact (hP.arith h hb).1
  | inNeg _ ih => exact ih hb
  | inPos _ ih => exact ih hb
  | inLeft _ ih => exact ih hb
  | inRight _ ih => exact ih hb
  | inFr _ ih => exact ih hb
  | inRf _ ih => exact ih hb

theorem steps_bad (hP : P.Flags bad) (h : P.Steps T e s e' s' w) (hb : ¬ bad s') : ¬ bad s := by
  induction h with
  | done => exact hb
  | step h _ ih => exact hP.step_bad h (ih hb)

theorem steps (hP : P.Flags bad) (h : P.Steps T e s e' s' w) (hb : ¬ bad s') : ∀ {q : ℚ},
    e.LeavesInRange T → e.value = some q → e'.LeavesInRange T ∧ e'.value = some q := by
  induction h with
  | done => exact fun hr hv => ⟨hr, hv⟩
  | step h h' ih =>
    intro q hr hv
    obtain ⟨-, h2, h3⟩ := hP.step h (hP.steps_bad h' hb) hr hv
    exact ih hb h2 h3

end SPolicy.Flags

end Ieme
