import Verif.Lemmas.HeaderMath
import Verif.Lemmas.Closure

/-!
# The text of `mixed_number`, evaluated

Where the type of a fraction is already the one wanted, the text copies it and the model converts
it, which is the same for values of the type.
-/

namespace Ieme.Header

open Res

variable {n : Nat}

/-- A fraction copied or converted. -/
def copyTo (T S : IntTy) (f : Raw) : Res Raw := if S = T then pure f else Fraction.ofOther T f

/-- `Mixed.ofFraction` as written. -/
def ofFractionT (W F : IntTy) (o : Ops) (S : IntTy) (v : Raw) : Res Mixed := do
  let t ← Fraction.trunc S v
  let w ← W.conv t
  let w' ← S.conv w
  let d ← Fraction.arith S S o .minus (.fr v w')
  let f ← copyTo F S d
  return ⟨w, f⟩

/-- `Mixed.asFraction` as written. -/
def asFractionT (W F : IntTy) (o : Ops) (m : Mixed) : Res Raw := do
  let C := IntTy.common W F
  let w ← C.conv m.whole
  let f ← copyTo C F m.frac
  Fraction.arith C C o .plus (.rf w f)

/-- `Mixed.add` as written. -/
def addT (W₁ F₁ W₂ F₂ : IntTy) (o : Ops) (l r : Mixed) : Res Mixed := do
  let W := IntTy.common W₁ W₂
  let F := IntTy.common F₁ F₂
  let lw ← W.conv l.whole
  let rw ← W.conv r.whole
  let w ← W.add lw rw
  let lf ← copyTo F F₁ l.frac
  let rf ← copyTo F F₂ r.frac
  let f ← Fraction.arith F F o .plus (.ff lf rf)
  Mixed.mk' W F o w f

/-- `Mixed.addFraction` as written. -/
def addFractionT (W F₁ F₂ : IntTy) (o : Ops) (l : Mixed) (r : Raw) : Res Mixed := do
  let r' ← ofFractionT F₂ F₂ o F₂ r
  addT W F₁ F₂ F₂ o l r'

theorem common_comm (A B : IntTy) : A.common B = B.common A := by
  unfold IntTy.common
  rcases A with ⟨s, b, hb⟩
  rcases B with ⟨t, c, hc⟩
  cases s <;> cases t <;> simp <;> split_ifs <;> simp_all <;> omega

local notation "mixedOf" W:max F:max o:max =>
  (Scope.mk N.«mixed_number» [TVal.int W, TVal.int F, TVal.ops o])

@[exec_header] theorem fraction_default_ok (T : IntTy) (o : Ops) (h : 5 ≤ n) :
    value (invoke library n ⟨N.«fraction», [.int T, .ops o]⟩ none N.«fraction» [] []) =
      pure (Val.frac T o Fraction.default) := by
  step n
  go [defaultObject, initFields, classTys, withAliases, withConsts, List.zip, List.zipWith,
    Fraction.default]

@[exec_header] theorem mixed_whole_ok (W F : IntTy) (o : Ops) (m : Mixed) (h : 1 ≤ n) :
    value (invoke library n (mixedOf W F o) (some (.mixed W F o m)) N.«whole» [] []) =
      pure (Val.int W m.whole) := by
  step n
  go []

@[exec_header] theorem mixed_fractional_ok (W F : IntTy) (o : Ops) (m : Mixed) (h : 1 ≤ n) :
    value (invoke library n (mixedOf W F o) (some (.mixed W F o m)) N.«fractional» [] []) =
      pure (Val.frac F o m.frac) := by
  step n
  go []

@[exec_header] theorem mixed_fix_ok (W F : IntTy) (o : Ops) (m : Mixed) (h : opsDepth o + 10 ≤ n) :
    changed (invoke library n (mixedOf W F o) (some (.mixed W F o m)) N.«fix» [] []) =
      Val.mixed W F o <$> m.fix W F o := by
  have := opsDepth_ge o
  step n
  go [Mixed.fix, Mixed.fixImproper, Mixed.fixSigns]
  simp only [ite_bind, pure_bind, bind_assoc, Bool.and_eq_true, decide_eq_true_eq]

@[exec_header] theorem mixed_mk_ok (W F : IntTy) (o : Ops) (w : Int) (f : Raw)
    (h : opsDepth o + 11 ≤ n) :
    value (invoke library n (mixedOf W F o) none N.«mixed_number» [] [.int W w, .frac F o f]) =
      Val.mixed W F o <$> Mixed.mk' W F o w f := by
  have := opsDepth_ge o
  step n
  go [Mixed.mk']

@[exec_header] theorem mixed_mk_one_ok (W F : IntTy) (o : Ops) (w : Int)
    (h : opsDepth o + 11 ≤ n) :
    value (invoke library n (mixedOf W F o) none N.«mixed_number» [] [.int W w]) =
      Val.mixed W F o <$> Mixed.mk' W F o w := by
  have := opsDepth_ge o
  step n
  go [Mixed.mk']

@[exec_header] theorem mixed_default_ok (W F : IntTy) (o : Ops) (h : 6 ≤ n) :
    value (invoke library n (mixedOf W F o) none N.«mixed_number» [] []) =
      pure (Val.mixed W F o Mixed.default) := by
  step n
  go [defaultObject, initFields, classTys, withAliases, withConsts, List.zip, List.zipWith,
    Mixed.default]

@[exec_header] theorem mixed_ofFractionT_ok (W F : IntTy) (o : Ops) (S : IntTy) (v : Raw)
    (h : opsDepth o + 8 ≤ n) :
    value (invoke library n (mixedOf W F o) none N.«mixed_number» [] [.frac S o v]) =
      Val.mixed W F o <$> ofFractionT W F o S v := by
  have := opsDepth_ge o
  step n
  by_cases hS : S = F
  · subst hS
    go [ofFractionT, copyTo]
  · go [ofFractionT, copyTo, hS]

theorem mixed_ofOtherT_ok (W F : IntTy) (o p : Ops) (S : IntTy) (v : Raw) (hp : p ≠ o)
    (h : opsDepth o + 9 ≤ n) :
    value (invoke library n (mixedOf W F o) none N.«mixed_number» [] [.frac S p v]) =
      Val.mixed W F o <$> ofFractionT W F o S v := by
  have := opsDepth_ge o
  step n
  simp [hp.symm]
  go [hp]

@[exec_header] theorem mixed_asFractionT_ok (W F : IntTy) (o : Ops) (m : Mixed)
    (h : opsDepth o + 8 ≤ n) :
    value (invoke library n (mixedOf W F o) (some (.mixed W F o m)) N.«as_fraction» [] []) =
      Val.frac (W.common F) o <$> asFractionT W F o m := by
  have := opsDepth_ge o
  step n
  by_cases hF : F = W.common F
  · rw [← hF]
    go [asFractionT, copyTo, ← hF]
  · go [asFractionT, copyTo, hF]

@[exec_header] theorem mixed_conversionT_ok (W F : IntTy) (o : Ops) (m : Mixed)
    (h : opsDepth o + 9 ≤ n) :
    value (invoke library n (mixedOf W F o) (some (.mixed W F o m)) N.«operator» [] []) =
      Val.frac (W.common F) o <$> asFractionT W F o m := by
  have := opsDepth_ge o
  step n
  go []

@[exec_header] theorem mixed_pos_ok (W F : IntTy) (o : Ops) (m : Mixed) (h : 1 ≤ n) :
    value (invoke library n .global none N.«operator+» [] [.mixed W F o m]) =
      pure (Val.mixed W F o m.pos) := by
  step n
  go [Mixed.pos]

@[exec_header] theorem mixed_neg_ok (W F : IntTy) (o : Ops) (m : Mixed)
    (h : opsDepth o + 12 ≤ n) :
    value (invoke library n .global none N.«operator-» [] [.mixed W F o m]) =
      Val.mixed W F o <$> m.neg W F o := by
  have := opsDepth_ge o
  step n
  go [Mixed.neg]

@[exec_header] theorem mixed_addT_ok (W₁ F₁ W₂ F₂ : IntTy) (o : Ops) (l r : Mixed)
    (h : opsDepth o + 12 ≤ n) :
    value (invoke library n .global none N.«operator+» [] [.mixed W₁ F₁ o l, .mixed W₂ F₂ o r]) =
      Val.mixed (W₁.common W₂) (F₁.common F₂) o <$> addT W₁ F₁ W₂ F₂ o l r := by
  have := opsDepth_ge o
  step n
  by_cases hF : F₁ = F₂
  · subst hF
    go [addT, copyTo]
  · by_cases h₁ : F₁.common F₂ = F₁
    · go [addT, copyTo, h₁, hF, Ne.symm hF]
    · by_cases h₂ : F₁.common F₂ = F₂
      · go [addT, copyTo, h₂, hF, Ne.symm hF]
      · go [addT, copyTo, hF, Ne.symm h₁, Ne.symm h₂]

@[exec_header] theorem mixed_addFractionT_ok (W F₁ F₂ : IntTy) (o : Ops) (l : Mixed) (r : Raw)
    (h : opsDepth o + 13 ≤ n) :
    value (invoke library n .global none N.«operator+» [] [.mixed W F₁ o l, .frac F₂ o r]) =
      Val.mixed (W.common F₂) (F₁.common F₂) o <$> addFractionT W F₁ F₂ o l r := by
  have := opsDepth_ge o
  step n
  go [addFractionT]

@[exec_header] theorem mixed_fractionAddT_ok (W F₁ F₂ : IntTy) (o : Ops) (l : Mixed) (r : Raw)
    (h : opsDepth o + 14 ≤ n) :
    value (invoke library n .global none N.«operator+» [] [.frac F₂ o r, .mixed W F₁ o l]) =
      Val.mixed (W.common F₂) (F₁.common F₂) o <$> addFractionT W F₁ F₂ o l r := by
  have := opsDepth_ge o
  step n
  go []

@[exec_header] theorem mixed_addWhole_ok (W₁ F W₂ : IntTy) (o : Ops) (l : Mixed) (r : Int)
    (h : opsDepth o + 12 ≤ n) :
    value (invoke library n .global none N.«operator+» [] [.mixed W₁ F o l, .int W₂ r]) =
      Val.mixed (W₁.common W₂) F o <$> Mixed.addWhole W₁ F W₂ o l r := by
  have := opsDepth_ge o
  step n
  go [Mixed.addWhole]

@[exec_header] theorem mixed_wholeAdd_ok (W₁ F W₂ : IntTy) (o : Ops) (l : Mixed) (r : Int)
    (h : opsDepth o + 13 ≤ n) :
    value (invoke library n .global none N.«operator+» [] [.int W₂ r, .mixed W₁ F o l]) =
      Val.mixed (W₁.common W₂) F o <$> Mixed.addWhole W₁ F W₂ o l r := by
  have := opsDepth_ge o
  rw [common_comm]
  step n
  go [common_comm W₁ W₂]

/-! ### The text and the model -/

theorem bind_congr_ok {α β : Type} {x : Res α} {f g : α → Res β}
    (h : ∀ a w, x = .ok a w → f a = g a) : x >>= f = x >>= g := by
  cases x with
  | fault k => rfl
  | ok a w => simp only [Bind.bind, Res.bind, h a w rfl]

theorem copyTo_eq {S : IntTy} (T : IntTy) {f : Raw} (hf : f.InRange S) :
    copyTo T S f = Fraction.ofOther T f := by
  unfold copyTo
  split
  · next h => subst h; exact (Raw.conv_clean.2 ⟨hf, rfl⟩).symm
  · rfl

theorem toTy_eq {S : IntTy} (T : IntTy) {x : Int} (hx : S.InRange x) : toTy T S x = T.conv x := by
  unfold toTy
  split
  · next h => subst h; exact (IntTy.conv_clean.2 ⟨hx, rfl⟩).symm
  · rfl

theorem conv_ok_inRange {T : IntTy} {x y : Int} {w : Bool} (h : T.conv x = .ok y w) :
    T.InRange y := by
  obtain ⟨w', v, hv, h'⟩ := conv_split T x
  rw [h] at h'
  cases w' <;> cases h' <;> exact hv

theorem ofFractionT_eq (W F : IntTy) (o : Ops) {S : IntTy} {v : Raw} (hv : v.InRange S) :
    ofFractionT W F o S v = Mixed.ofFraction W F o S v := by
  refine bind_congr_ok fun t _ _ => bind_congr_ok fun w _ _ => bind_congr_ok fun w' _ hw =>
    bind_congr_ok fun d _ hd => ?_
  rw [copyTo_eq]
  simp only [Fraction.arith, Fraction.toCommon, IntTy.common_self, if_true, pure_bind] at hd
  exact Ops.arith_inRange (a := .fr v w') ⟨hv, conv_ok_inRange hw⟩ hd

theorem asFractionT_eq {W F : IntTy} (o : Ops) {m : Mixed} (hm : m.frac.InRange F) :
    asFractionT W F o m = Mixed.asFraction W F o m := by
  simp only [asFractionT, copyTo_eq _ hm]; rfl

theorem addT_eq {W₁ F₁ W₂ F₂ : IntTy} (o : Ops) {l r : Mixed} (hl : l.frac.InRange F₁)
    (hr : r.frac.InRange F₂) : addT W₁ F₁ W₂ F₂ o l r = Mixed.add W₁ F₁ W₂ F₂ o l r := by
  simp only [addT, copyTo_eq _ hl, copyTo_eq _ hr]; rfl

theorem addFractionT_eq {W F₁ F₂ : IntTy} (o : Ops) {l : Mixed} {r : Raw}
    (hl : l.frac.InRange F₁) (hr : r.InRange F₂) :
    addFractionT W F₁ F₂ o l r = Mixed.addFraction W F₁ F₂ o l r := by
  simp only [addFractionT, ofFractionT_eq _ _ _ hr]
  refine bind_congr_ok fun m _ hm => addT_eq o hl ?_
  simp only [Mixed.ofFraction, bind_eq_ok, pure_eq_ok, Fraction.ofOther, Raw.conv] at hm
  obtain ⟨_, _, _, -, ⟨_, _, _, -, ⟨_, _, _, -, ⟨_, _, _, -, ⟨_, _, _, h, ⟨rfl, -⟩, -⟩, -⟩, -⟩, -⟩, -⟩ := hm
  obtain ⟨_, _, _, h1, ⟨_, _, _, h2, ⟨rfl, -⟩, -⟩, -⟩ := h
  exact ⟨conv_ok_inRange h1, conv_ok_inRange h2⟩

end Ieme.Header
