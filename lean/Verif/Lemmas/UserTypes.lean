import Verif.Lemmas.UserCode
import Verif.Lemmas.FaultsApps
import Verif.Spec.UserTypes

/-! # Lemmas: the types of code of users -/

namespace Ieme.User

open Header

open Res

variable {o : Ops} {n : Nat} {ents : List (Nat × Val)} {Γ : Ctx} {tys : Types}

/-- The failures of arithmetic. -/
abbrev Arithmetic : Fault → Prop := Fault.Calc True

theorem Arithmetic.mem {k : Fault} (h : Arithmetic k) : k ∈ arithFaults := by
  cases k <;> simp_all [Arithmetic, Fault.Calc, arithFaults]

theorem triple_calc {α : Type} {P Q : α → Prop} {x : Res α} {T : IntTy} {dz : Prop}
    (h : x.Triple P (Fault.Arith T dz)) (hPQ : ∀ a, P a → Q a) : x.Triple Q Arithmetic :=
  (h.calc fun _ => trivial).mono hPQ fun _ h => h

theorem map_triple {α : Type} {mk : α → Val} {x : Res α} {P : α → Prop} {Q : Val → Prop}
    {K : Fault → Prop} (h : x.Triple P K) (hQ : ∀ a, P a → Q (mk a)) : (mk <$> x).Triple Q K := by
  rw [map_eq_pure_bind]
  exact h.bind fun a ha => Triple.pure (hQ a ha)

theorem HasTy.int {v : Val} {T : IntTy} (h : HasTy o v (.int T)) :
    ∃ k, v = .int T k ∧ T.InRange k := by
  cases v <;> simp only [HasTy] at h
  obtain ⟨rfl, h⟩ := h
  exact ⟨_, rfl, h⟩

theorem HasTy.frac {v : Val} {T : IntTy} (h : HasTy o v (.frac T)) :
    ∃ r, v = .frac T o r ∧ r.InRange T := by
  cases v <;> simp only [HasTy] at h
  obtain ⟨rfl, rfl, h⟩ := h
  exact ⟨_, rfl, h⟩

theorem HasTy.bool {v : Val} (h : HasTy o v .bool) : ∃ b, v = .bool b := by
  cases v <;> simp only [HasTy] at h
  exact ⟨_, rfl⟩

theorem HasTy.mixed {v : Val} {W F : IntTy} (h : HasTy o v (.mixed W F)) :
    ∃ m, v = .mixed W F o m ∧ m.Typed W F := by
  cases v <;> simp only [HasTy] at h
  obtain ⟨rfl, rfl, rfl, h⟩ := h
  exact ⟨_, rfl, h⟩

theorem toTy_triple {C S : IntTy} {x : ℤ} {K : Fault → Prop} (hx : S.InRange x) :
    (toTy C S x).Triple (fun y => C.InRange y) K := by
  unfold toTy
  split
  · rename_i h; subst h; exact Triple.pure hx
  · exact (conv_triple x).mono (fun _ h => h.1) fun _ h => h

/-! ## Operators -/

theorem arith_ty {op : ArithOp} {L R : IntTy} {a : Ieme.Args} (ha : a.HaveTypes L R) :
    (Fraction.arith L R o op a).Triple (fun r => r.InRange (L.common R)) Arithmetic := by
  refine (Fraction.toCommon_triple ha).bind fun b hb => ?_
  exact triple_calc (Ops.arith_triple hb.1) fun _ h => h.1

theorem cmp_ty {op : CmpOp} {L R : IntTy} {a : Ieme.Args} (ha : a.HaveTypes L R) :
    (Fraction.cmp L R o op a).Triple (fun _ => True) Arithmetic := by
  refine (Fraction.toCommon_triple ha).bind fun b hb => ?_
  exact triple_calc (Ops.cmp_faults hb.1) fun _ _ => trivial

theorem mixed_op_ty {op : BinOp} {L R : IntTy} {a : Ieme.Args} {t : UTy}
    (hn : opsDepth o + 1 ≤ n) (ha : a.HaveTypes L R)
    (ht : (if op ∈ arithOps then some (UTy.frac (L.common R))
      else if op ∈ cmpOps then some .bool else none) = some t) :
    (value (invoke library n .global none (opName op) [] (operands L R o a))).Triple
      (fun v => HasTy o v t) Arithmetic := by
  split_ifs at ht with h1 h2
  · obtain ⟨aop, hop⟩ : ∃ aop, arithOf op = some aop := by
      cases op <;> simp_all [arithOps, arithOf]
    cases ht
    rw [arith_text hop L R a hn]
    exact map_triple (arith_ty ha) fun r hr => ⟨rfl, rfl, hr⟩
  · obtain ⟨cop, hop⟩ : ∃ cop, cmpOf op = some cop := by
      cases op <;> simp_all [cmpOps, cmpOf]
    cases ht
    rw [cmp_text hop L R a hn]
    exact map_triple (cmp_ty ha) fun _ _ => trivial

theorem arithInt_ty {T : IntTy} {op : BinOp} {x y : ℤ} {t : UTy} (hx : T.InRange x)
    (hy : T.InRange y)
    (ht : (if op ∈ arithOps then some (UTy.int T)
      else if op ∈ cmpOps then some .bool else none) = some t) :
    (arithInt T op x y).Triple (fun v => HasTy o v t) Arithmetic := by
  cases op <;> simp only [arithOps, cmpOps, List.mem_cons, reduceCtorEq, or_false, or_true,
    or_self, List.not_mem_nil, if_true, if_false, Option.some.injEq] at ht <;> subst ht
  · exact map_triple (arith_triple _ fun _ => trivial) fun r hr => ⟨rfl, hr.1⟩
  · exact map_triple (arith_triple _ fun _ => trivial) fun r hr => ⟨rfl, hr.1⟩
  · exact map_triple (arith_triple _ fun _ => trivial) fun r hr => ⟨rfl, hr.1⟩
  · exact map_triple (div_triple hx hy (fun _ => trivial) fun _ => trivial) fun r hr => ⟨rfl, hr.1⟩
  · exact map_triple (mod_triple hx hy (fun _ => trivial) fun _ => trivial) fun r hr => ⟨rfl, hr.1⟩
  all_goals exact Triple.pure trivial

/-! ### Mixed numbers -/

theorem copyTo_ty {T S : IntTy} {r : Raw} {K : Fault → Prop} (hr : r.InRange S) :
    (copyTo T S r).Triple (fun s => s.InRange T) K := by
  unfold copyTo
  split
  · rename_i h; subst h; exact Triple.pure hr
  · exact (Raw.conv_triple r).mono (fun _ h => h.1) fun _ h => h

theorem calc_ty {α : Type} {P Q : α → Prop} {x : Res α} {dz : Prop}
    (h : x.Triple P (Fault.Calc dz)) (hPQ : ∀ a, P a → Q a) : x.Triple Q Arithmetic :=
  h.mono hPQ fun _ => Fault.Calc.mono fun _ => trivial

theorem mk'_ty {W F : IntTy} {w : ℤ} {r : Raw} (hw : W.InRange w) (hr : r.InRange F) :
    (Mixed.mk' W F o w r).Triple (Mixed.Typed W F) Arithmetic :=
  calc_ty (Mixed.mk'_triple hw hr) fun _ h => h

theorem ofFractionT_ty {W F S : IntTy} {r : Raw} (hr : r.InRange S) :
    (ofFractionT W F o S r).Triple (Mixed.Typed W F) Arithmetic := by
  refine ((Fraction.trunc_triple hr).mono (fun _ h => h) ?_).bind fun t ht => ?_
  · rintro k (⟨rfl, -⟩ | ⟨rfl, -⟩) <;> trivial
  refine (conv_triple _).bind fun w hw => (conv_triple _).bind fun w' hw' => ?_
  refine (arith_ty (a := .fr r w') ⟨hr, hw'.1⟩).bind fun d hd => ?_
  rw [IntTy.common_self] at hd
  exact (copyTo_ty hd).bind fun f hf => Triple.pure ⟨hw.1, hf⟩

theorem asFractionT_ty {W F : IntTy} {m : Mixed} (hm : m.Typed W F) :
    (asFractionT W F o m).Triple (fun r => r.InRange (W.common F)) Arithmetic := by
  refine (conv_triple _).bind fun w hw => (copyTo_ty hm.2).bind fun f hf => ?_
  have := arith_ty (o := o) (op := .plus) (L := W.common F) (R := W.common F) (a := .rf w f)
    ⟨hw.1, hf⟩
  rwa [IntTy.common_self] at this

theorem addT_ty {W₁ F₁ W₂ F₂ : IntTy} {l r : Mixed} (hl : l.Typed W₁ F₁) (hr : r.Typed W₂ F₂) :
    (addT W₁ F₁ W₂ F₂ o l r).Triple (Mixed.Typed (W₁.common W₂) (F₁.common F₂)) Arithmetic := by
  refine (conv_triple _).bind fun lw _ => (conv_triple _).bind fun rw _ => ?_
  refine (arith_triple _ fun _ => trivial).bind fun w hw => ?_
  refine (copyTo_ty hl.2).bind fun lf hlf => (copyTo_ty hr.2).bind fun rf hrf => ?_
  refine (arith_ty (a := .ff lf rf) ⟨hlf, hrf⟩).bind fun f hf => ?_
  rw [IntTy.common_self] at hf
  exact mk'_ty hw.1 hf

theorem addFractionT_ty {W F T : IntTy} {l : Mixed} {r : Raw} (hl : l.Typed W F)
    (hr : r.InRange T) :
    (addFractionT W F T o l r).Triple (Mixed.Typed (W.common T) (F.common T)) Arithmetic :=
  (ofFractionT_ty hr).bind fun _ h => addT_ty hl h

theorem addWhole_ty {W F T : IntTy} {l : Mixed} {r : ℤ} (hl : l.Typed W F) :
    (Mixed.addWhole W F T o l r).Triple (Mixed.Typed (W.common T) F) Arithmetic :=
  calc_ty (Mixed.addWhole_triple hl) fun _ h => h

/-- The results of operations on mixed numbers. -/
theorem map_mixed_ty {W F : IntTy} {x : Res Mixed} (h : x.Triple (Mixed.Typed W F) Arithmetic) :
    (Val.mixed W F o <$> x).Triple (fun v => HasTy o v (.mixed W F)) Arithmetic :=
  map_triple h fun _ hm => ⟨rfl, rfl, rfl, hm⟩

theorem binary_ty {op : BinOp} {s t u : UTy} {a b : Val} (hn : opsDepth o + 14 ≤ n)
    (ha : HasTy o a s) (hb : HasTy o b t) (hu : opTy op s t = some u) :
    (binary (invoke library n) op a b).Triple (fun v => HasTy o v u) Arithmetic := by
  cases s with
  | bool => cases t <;> cases hu
  | int A =>
    obtain ⟨x, rfl, hx⟩ := ha.int
    cases t with
    | bool => cases hu
    | int B =>
      obtain ⟨y, rfl, hy⟩ := hb.int
      simp only [opTy] at hu
      have hs : op ≠ .shl := by rintro rfl; simp [arithOps, cmpOps] at hu
      simp only [binary, hs, if_false]
      exact (toTy_triple hx).bind fun x' hx' => (toTy_triple hy).bind fun y' hy' =>
        arithInt_ty hx' hy' hu
    | frac B =>
      obtain ⟨r, rfl, hr⟩ := hb.frac
      exact mixed_op_ty (a := .rf x r) (by omega) ⟨hx, hr⟩ hu
    | mixed W F =>
      obtain ⟨r, rfl, hr⟩ := hb.mixed
      simp only [opTy] at hu
      split_ifs at hu with h
      subst h
      cases hu
      simp only [binary, opName]
      rw [mixed_wholeAdd_ok W F A o r x (by omega)]
      exact map_mixed_ty (addWhole_ty hr)
  | frac A =>
    obtain ⟨l, rfl, hl⟩ := ha.frac
    cases t with
    | bool => cases hu
    | int B =>
      obtain ⟨y, rfl, hy⟩ := hb.int
      exact mixed_op_ty (a := .fr l y) (by omega) ⟨hl, hy⟩ hu
    | frac B =>
      obtain ⟨r, rfl, hr⟩ := hb.frac
      exact mixed_op_ty (a := .ff l r) (by omega) ⟨hl, hr⟩ hu
    | mixed W F =>
      obtain ⟨r, rfl, hr⟩ := hb.mixed
      simp only [opTy] at hu
      split_ifs at hu with h
      subst h
      cases hu
      simp only [binary, opName]
      rw [mixed_fractionAddT_ok W F A o r l (by omega)]
      exact map_mixed_ty (addFractionT_ty hr hl)
  | mixed W F =>
    obtain ⟨l, rfl, hl⟩ := ha.mixed
    cases t with
    | bool => cases hu
    | int B =>
      obtain ⟨y, rfl, hy⟩ := hb.int
      simp only [opTy] at hu
      split_ifs at hu with h
      subst h
      cases hu
      simp only [binary, opName]
      rw [mixed_addWhole_ok W F B o l y (by omega)]
      exact map_mixed_ty (addWhole_ty hl)
    | frac B =>
      obtain ⟨r, rfl, hr⟩ := hb.frac
      simp only [opTy] at hu
      split_ifs at hu with h
      subst h
      cases hu
      simp only [binary, opName]
      rw [mixed_addFractionT_ok W F B o l r (by omega)]
      exact map_mixed_ty (addFractionT_ty hl hr)
    | mixed W' F' =>
      obtain ⟨r, rfl, hr⟩ := hb.mixed
      simp only [opTy] at hu
      split_ifs at hu with h
      subst h
      cases hu
      simp only [binary, opName]
      rw [mixed_addT_ok W F W' F' o l r (by omega)]
      exact map_mixed_ty (addT_ty hl hr)

/-! ## Functions and constructors -/

theorem normalizeSigns_ty {T : IntTy} {r : Raw} (hr : r.InRange T) :
    (r.normalizeSigns T).Triple (fun s => s.InRange T) Arithmetic := by
  unfold Raw.normalizeSigns
  split
  · exact Triple.pure hr
  · refine (arith_triple _ fun _ => trivial).bind fun a ha => ?_
    refine (arith_triple _ fun _ => trivial).bind fun b hb => ?_
    exact Triple.pure ⟨ha.1, hb.1⟩

theorem abs_ty {T : IntTy} {r : Raw} (hr : r.InRange T) :
    (Fraction.abs T o r).Triple (fun s => s.InRange T) Arithmetic := by
  unfold Fraction.abs
  split
  · exact Triple.pure hr
  · exact triple_calc (Ops.negate_faults hr) fun _ h => h.1

theorem fun_ty {T : IntTy} {f : Nat} {r : Raw} {t : UTy} (hn : opsDepth o + 4 ≤ n)
    (hr : r.InRange T) (hf : funTy f T = some t) :
    (value (invoke library n .global none f [] [.frac T o r])).Triple (fun v => HasTy o v t)
      Arithmetic := by
  have := opsDepth_ge o
  have tr : ∀ {α : Type} {P : α → Prop} {x : Res α} {K : Fault → Prop}, x.Triple P K →
      (∀ k, K k → Arithmetic k) → x.Triple P Arithmetic := fun h hk => h.mono (fun _ h => h) hk
  have over : ∀ k, (k = Fault.overflow ∧ T.signed = true) → Arithmetic k := by
    rintro k ⟨rfl, -⟩; trivial
  have gcd : ∀ k, (k = Fault.gcdPrecond ∧ T.signed = true) → Arithmetic k := by
    rintro k ⟨rfl, -⟩; trivial
  have whole : ∀ k, (k = Fault.overflow ∧ T.signed = true ∨ k = Fault.divByZero ∧ r.den = 0) →
      Arithmetic k := by
    rintro k (⟨rfl, -⟩ | ⟨rfl, -⟩) <;> trivial
  have boolOk : ∀ (b : Bool), (pure (Val.bool b) : Res Val).Triple (fun v => HasTy o v .bool)
      Arithmetic := fun b => Triple.pure trivial
  unfold funTy at hf
  split_ifs at hf with h1 h2 h3 <;> cases hf
  · simp only [List.mem_cons, List.not_mem_nil, or_false] at h1
    rcases h1 with rfl | rfl | rfl | rfl
    · rw [fraction_abs_ok T o r (by omega)]
      exact map_triple (abs_ty hr) fun s hs => ⟨rfl, rfl, hs⟩
    · rw [fraction_reduceDefault_ok T o r (by omega)]
      exact map_triple (triple_calc (Raw.reduce_triple _ hr) fun _ h => h) fun s hs => ⟨rfl, rfl, hs.1⟩
    · rw [fraction_normalizeSigns_ok T o r (by omega)]
      exact map_triple (normalizeSigns_ty hr) fun s hs => ⟨rfl, rfl, hs⟩
    · rw [fraction_reciprocal_ok T o r (by omega)]
      exact Triple.pure ⟨rfl, rfl, hr.2, hr.1⟩
  · simp only [List.mem_cons, List.not_mem_nil, or_false] at h2
    rcases h2 with rfl | rfl | rfl | rfl
    · rw [fraction_trunc_ok T o r (by omega)]
      exact map_triple (tr (Fraction.trunc_triple hr) whole) fun s hs => ⟨rfl, hs⟩
    · rw [fraction_ceil_ok T o r (by omega)]
      exact map_triple (tr (Fraction.ceil_triple hr) whole) fun s hs => ⟨rfl, hs⟩
    · rw [fraction_floor_ok T o r (by omega)]
      exact map_triple (tr (Fraction.floor_triple hr) whole) fun s hs => ⟨rfl, hs⟩
    · rw [fraction_round_ok T o r (by omega)]
      exact map_triple (triple_calc (Fraction.round_triple hr) fun _ h => h) fun s hs => ⟨rfl, hs⟩
  · simp only [List.mem_cons, List.not_mem_nil, or_false] at h3
    rcases h3 with rfl | rfl | rfl | rfl | rfl | rfl | rfl | rfl | rfl | rfl | rfl | rfl | rfl
    · rw [fraction_isDefined_ok T o r (by omega)]; exact boolOk _
    · rw [fraction_isUndefined_ok T o r (by omega)]; exact boolOk _
    · rw [fraction_isPositive_ok T o r (by omega)]; exact boolOk _
    · rw [fraction_isNonNegative_ok T o r (by omega)]; exact boolOk _
    · rw [fraction_isZero_ok T o r (by omega)]; exact boolOk _
    · rw [fraction_isNonPositive_ok T o r (by omega)]; exact boolOk _
    · rw [fraction_isNegative_ok T o r (by omega)]; exact boolOk _
    · rw [fraction_isInteger_ok T o r (by omega)]
      exact map_triple (tr (Raw.isInteger_triple hr) over) fun _ _ => trivial
    · rw [fraction_isUnitFraction_ok T o r (by omega)]
      exact map_triple (tr (Raw.isUnitFraction_triple hr) over) fun _ _ => trivial
    · rw [fraction_isReducedIgnoreSigns_ok T o r (by omega)]
      exact map_triple (tr (Raw.isReducedIgnoreSigns_triple hr) gcd) fun _ _ => trivial
    · rw [fraction_isReduced_ok T o r (by omega)]
      exact map_triple (tr (Raw.isReduced_triple hr) gcd) fun _ _ => trivial
    · rw [fraction_isProper_ok T o r (by omega)]
      exact map_triple (tr (Raw.isProper_triple hr) over) fun _ _ => trivial
    · rw [fraction_isImproper_ok T o r (by omega)]
      exact map_triple (tr (Raw.isImproper_triple hr) over) fun _ _ => trivial

/-- The results are in range. -/
theorem redenominate_range {T : IntTy} {r : Raw} {d : ℤ} (mode : RoundMode) (hr : r.InRange T)
    (hd : T.InRange d) :
    (Fraction.redenominate T o r d mode).Triple (fun s => s.InRange T) Arithmetic := by
  have scale : ∀ {e : ℤ}, T.InRange e →
      (Fraction.arith T T o .multiplies (.fr r e)).Triple (fun s => s.InRange T) Arithmetic :=
    fun he => triple_calc (Fraction.scale_triple hr he) fun _ h => h.1
  have whole : ∀ {p : Raw} (m : RoundMode), p.InRange T →
      (Fraction.toWhole T o p m).Triple T.InRange Arithmetic :=
    fun m hp => triple_calc (Fraction.toWhole_triple m hp) fun _ h => h
  have pos : ∀ (m : RoundMode), Triple (do
      let p ← Fraction.arith T T o .multiplies (.fr r d)
      let n ← Fraction.toWhole T o p m
      return Fraction.mk n d) (fun s => s.InRange T) Arithmetic := fun m =>
    (scale hd).bind fun p hp => (whole m hp).bind fun _ hk => Triple.pure ⟨hk, hd⟩
  have neg : ∀ (m : RoundMode), Triple (do
      let e ← T.neg d
      let p ← Fraction.arith T T o .multiplies (.fr r e)
      let c ← Fraction.toWhole T o p m
      let n ← T.neg c
      return Fraction.mk n d) (fun s => s.InRange T) Arithmetic := fun m =>
    (arith_triple _ fun _ => trivial).bind fun e he => (scale he.1).bind fun p hp =>
      (whole m hp).bind fun _ _ => (arith_triple _ fun _ => trivial).bind fun _ hk =>
        Triple.pure ⟨hk.1, hd⟩
  cases mode
  · exact pos .trunc
  · show Triple (Fraction.ceilRedenominate T o r d) _ _
    unfold Fraction.ceilRedenominate
    split
    · exact pos .ceil
    · exact neg .ceil
  · show Triple (Fraction.floorRedenominate T o r d) _ _
    unfold Fraction.floorRedenominate
    split
    · exact pos .floor
    · exact neg .floor
  · exact pos .round
  · exact pos .round

theorem redenominate_ty {T : IntTy} {f : Nat} {r : Raw} {d : ℤ} (hn : opsDepth o + 6 ≤ n)
    (hr : r.InRange T) (hd : T.InRange d) (hf : f ∈ redenominations) :
    (value (invoke library n .global none f [] [.frac T o r, .int T d])).Triple
      (fun v => HasTy o v (.frac T)) Arithmetic := by
  have key := fun mode => map_triple (mk := Val.frac T o) (Q := fun v => HasTy o v (.frac T))
    (redenominate_range (o := o) mode hr hd) fun s hs => ⟨rfl, rfl, hs⟩
  simp only [redenominations, List.mem_cons, List.not_mem_nil, or_false] at hf
  rcases hf with rfl | rfl | rfl | rfl | rfl
  · rw [fraction_truncRedenominate_ok T o r d (by omega)]; exact key .trunc
  · rw [fraction_floorRedenominate_ok T o r d (by omega)]; exact key .floor
  · rw [fraction_ceilRedenominate_ok T o r d (by omega)]; exact key .ceil
  · rw [fraction_roundRedenominate_ok T o r d (by omega)]; exact key .round
  · rw [fraction_redenominate_default_ok T o r d (by omega)]; exact key .round

local notation "mixedOf" W:max F:max o:max =>
  (Scope.mk N.«mixed_number» [TVal.int W, TVal.int F, TVal.ops o])

theorem method_ty {f : Nat} {v : Val} {s t : UTy} (hn : opsDepth o + 8 ≤ n)
    (hv : HasTy o v s) (hf : methodTy f s = some t) :
    (value (invoke library n v.type.scope (some v) f [] [])).Triple (fun v => HasTy o v t)
      Arithmetic := by
  have := opsDepth_ge o
  cases s with
  | bool => cases hf
  | int T => cases hf
  | frac T =>
    obtain ⟨r, rfl, hr⟩ := hv.frac
    simp only [Val.type, TVal.scope]
    simp only [methodTy] at hf
    split_ifs at hf with h
    cases hf
    simp only [List.mem_cons, List.not_mem_nil, or_false] at h
    rcases h with rfl | rfl | rfl | rfl
    · rw [fraction_numerator_ok (by omega)]; exact Triple.pure ⟨rfl, hr.1⟩
    · rw [fraction_denominator_ok (by omega)]; exact Triple.pure ⟨rfl, hr.2⟩
    · rw [fraction_num_ok (by omega)]; exact Triple.pure ⟨rfl, hr.1⟩
    · rw [fraction_den_ok (by omega)]; exact Triple.pure ⟨rfl, hr.2⟩
  | mixed W F =>
    obtain ⟨m, rfl, hm⟩ := hv.mixed
    simp only [Val.type, TVal.scope]
    simp only [methodTy] at hf
    split_ifs at hf with h1 h2 h3 <;> cases hf
    · subst h1
      rw [mixed_whole_ok W F o m (by omega)]
      exact Triple.pure ⟨rfl, hm.1⟩
    · subst h2
      rw [mixed_fractional_ok W F o m (by omega)]
      exact Triple.pure ⟨rfl, rfl, hm.2⟩
    · subst h3
      rw [mixed_asFractionT_ok W F o m (by omega)]
      exact map_triple (asFractionT_ty hm) fun r hr => ⟨rfl, rfl, hr⟩

/-- Conversion of an object to the type of a variable. -/
theorem construct_ty {u : Val} {t s : UTy} {τ : TVal} (hn : opsDepth o + 11 ≤ n) (hu : HasTy o u s)
    (hτ : objTy o τ = some t ∨ τ = .bool ∧ t = .bool) (ha : assignable t s) :
    (construct (invoke library n) τ [u]).Triple (fun v => HasTy o v t) Arithmetic := by
  have := opsDepth_ge o
  rcases hτ with hτ | ⟨rfl, rfl⟩
  · cases τ with
    | int T =>
      cases hτ
      cases s <;> simp only [assignable] at ha
      obtain ⟨k, rfl, hk⟩ := hu.int
      simp only [construct]
      split
      · rename_i h; subst h; exact Triple.pure ⟨rfl, hk⟩
      · exact map_triple (conv_triple k) fun r hr => ⟨rfl, hr.1⟩
    | frac T p =>
      simp only [objTy] at hτ
      split_ifs at hτ with hp
      subst hp
      cases hτ
      cases s with
      | bool => simp only [assignable] at ha
      | int A =>
        obtain ⟨k, rfl, hk⟩ := hu.int
        have hne : ¬ (Val.int A k).type = .frac T p := by simp [Val.type]
        simp only [construct, hne, if_false]
        change (value (invoke library n ⟨N.«fraction», [.int T, .ops p]⟩ none N.«fraction» []
          [.int A k])).Triple _ _
        rw [fraction_mk_one_ok (by omega)]
        refine map_triple (P := fun r => r.InRange T) ?_ fun r hr => ⟨rfl, rfl, hr⟩
        exact (toTy_triple hk).bind fun x hx => Triple.pure ⟨hx, IntTy.inRange_one⟩
      | frac S =>
        obtain ⟨r, rfl, hr⟩ := hu.frac
        by_cases hT : S = T
        · subst hT
          simp only [construct, Val.type, if_true]
          exact Triple.pure ⟨rfl, rfl, hr⟩
        · have hne : ¬ (Val.frac S p r).type = .frac T p := by simp [Val.type, hT]
          simp only [construct, hne, if_false]
          change (value (invoke library n ⟨N.«fraction», [.int T, .ops p]⟩ none N.«fraction» []
            [.frac S p r])).Triple _ _
          rw [fraction_ofOther_ok (by omega), if_neg hT]
          exact map_triple (Raw.conv_triple r) fun s hs => ⟨rfl, rfl, hs.1⟩
      | mixed A B => simp only [assignable] at ha
    | mixed W F p =>
      simp only [objTy] at hτ
      split_ifs at hτ with hp
      subst hp
      cases hτ
      cases s with
      | bool => simp only [assignable] at ha
      | int A =>
        obtain ⟨k, rfl, hk⟩ := hu.int
        have hne : ¬ (Val.int A k).type = .mixed W F p := by simp [Val.type]
        simp only [construct, hne, if_false]
        change (value (invoke library n (mixedOf W F p) none N.«mixed_number» []
          [.int A k])).Triple _ _
        rw [mixed_of_int W F A p k hn]
        exact (toTy_triple hk).bind fun x hx =>
          map_mixed_ty (mk'_ty hx ⟨IntTy.inRange_zero, IntTy.inRange_one⟩)
      | frac S =>
        obtain ⟨r, rfl, hr⟩ := hu.frac
        have hne : ¬ (Val.frac S p r).type = .mixed W F p := by simp [Val.type]
        simp only [construct, hne, if_false]
        change (value (invoke library n (mixedOf W F p) none N.«mixed_number» []
          [.frac S p r])).Triple _ _
        rw [mixed_ofFractionT_ok W F p S r (by omega)]
        exact map_mixed_ty (ofFractionT_ty hr)
      | mixed A B =>
        obtain ⟨rfl, rfl⟩ := ha
        obtain ⟨m, rfl, hm⟩ := hu.mixed
        simp only [construct, Val.type, if_true]
        exact Triple.pure ⟨rfl, rfl, rfl, hm⟩
    | _ => cases hτ
  · cases s <;> simp only [assignable] at ha
    obtain ⟨b, rfl⟩ := hu.bool
    exact Triple.pure trivial

theorem castTo_ty {u : Val} {t s : UTy} {τ : TVal} (hn : opsDepth o + 11 ≤ n) (hu : HasTy o u s)
    (hτ : objTy o τ = some t) (ha : assignable t s) :
    (castTo (invoke library n) τ u).Triple (fun v => HasTy o v t) Arithmetic := by
  cases τ with
  | int T =>
    cases hτ
    cases s <;> simp only [assignable] at ha
    obtain ⟨k, rfl, hk⟩ := hu.int
    exact map_triple (conv_triple k) fun r hr => ⟨rfl, hr.1⟩
  | frac T p => exact construct_ty hn hu (Or.inl hτ) ha
  | mixed W F p => exact construct_ty hn hu (Or.inl hτ) ha
  | _ => cases hτ

theorem HasTy.type {v : Val} {t : UTy} (h : HasTy o v t) :
    objTy o v.type = some t ∨ v.type = .bool ∧ t = .bool := by
  cases t with
  | bool => obtain ⟨b, rfl⟩ := h.bool; exact Or.inr ⟨rfl, rfl⟩
  | int T => obtain ⟨k, rfl, -⟩ := h.int; exact Or.inl rfl
  | frac T => obtain ⟨r, rfl, -⟩ := h.frac; exact Or.inl (by simp [Val.type, objTy])
  | mixed W F => obtain ⟨m, rfl, -⟩ := h.mixed; exact Or.inl (by simp [Val.type, objTy])

/-! ## Expressions -/

theorem expr_ty {e : Header.Expr} {t : UTy} (hn : policyDepth o ≤ n) (hΓ : Holds o ents Γ)
    (he : ExprTy o tys Γ e t) :
    (userEval n tys ents e).Triple (fun v => HasTy o v t) Arithmetic := by
  rw [policyDepth_eq] at hn
  have := opsDepth_ge o
  induction he with
  | num h => exact Triple.pure ⟨rfl, h⟩
  | var hx =>
    obtain ⟨v, hv, ht⟩ := hΓ _ _ hx
    simp only [userEval, eval, evalVar, if_true, userEnv, hv, orIll]
    exact Triple.pure ht
  | @neg e t _ hb ih =>
    refine ih.bind fun v hv => ?_
    cases t with
    | bool => exact absurd rfl hb
    | int T =>
      obtain ⟨k, rfl, hk⟩ := hv.int
      exact map_triple (arith_triple _ fun _ => trivial) fun r hr => ⟨rfl, hr.1⟩
    | frac T =>
      obtain ⟨r, rfl, hr⟩ := hv.frac
      simp only [unary]
      rw [fraction_neg_ok T o r (by omega)]
      exact map_triple (triple_calc (Ops.negate_faults hr) fun _ h => h.1) fun s hs => ⟨rfl, rfl, hs⟩
    | mixed W F =>
      obtain ⟨m, rfl, hm⟩ := hv.mixed
      simp only [unary]
      rw [mixed_neg_ok W F o m (by omega)]
      exact map_mixed_ty (calc_ty (Mixed.neg_triple hm) fun _ h => h)
  | @pos e t _ hb ih =>
    refine ih.bind fun v hv => ?_
    cases t with
    | bool => exact absurd rfl hb
    | int T =>
      obtain ⟨k, rfl, hk⟩ := hv.int
      exact Triple.pure ⟨rfl, hk⟩
    | frac T =>
      obtain ⟨r, rfl, hr⟩ := hv.frac
      simp only [unary]
      rw [fraction_pos_ok T o r (by omega)]
      exact Triple.pure ⟨rfl, rfl, hr⟩
    | mixed W F =>
      obtain ⟨m, rfl, hm⟩ := hv.mixed
      simp only [unary]
      rw [mixed_pos_ok W F o m (by omega)]
      exact Triple.pure ⟨rfl, rfl, rfl, hm⟩
  | not _ ih =>
    refine ih.bind fun v hv => ?_
    obtain ⟨b, rfl⟩ := hv.bool
    exact Triple.pure trivial
  | @bin op a b s t u _ _ hu iha ihb =>
    have h1 : op ≠ .and := by
      rintro rfl; cases s <;> cases t <;> simp [opTy, arithOps, cmpOps] at hu
    have h2 : op ≠ .or := by
      rintro rfl; cases s <;> cases t <;> simp [opTy, arithOps, cmpOps] at hu
    have : userEval n tys ents (.bin op a b) = (userEval n tys ents a >>= fun x =>
        userEval n tys ents b >>= fun y => binary (invoke library n) op x y) := by
      simp only [userEval, eval]
    rw [this]
    exact iha.bind fun x hx => ihb.bind fun y hy => binary_ty (by omega) hx hy hu
  | and _ _ iha ihb =>
    refine iha.bind fun v hv => ?_
    obtain ⟨b, rfl⟩ := hv.bool
    cases b
    · exact Triple.pure trivial
    · exact ihb
  | or _ _ iha ihb =>
    refine iha.bind fun v hv => ?_
    obtain ⟨b, rfl⟩ := hv.bool
    cases b
    · exact ihb
    · exact Triple.pure trivial
  | cond _ _ _ ihc iha ihb =>
    refine ihc.bind fun v hv => ?_
    obtain ⟨b, rfl⟩ := hv.bool
    cases b
    · exact ihb
    · exact iha
  | call hl _ hf ih =>
    simp only [userEval, eval, evalArgs, evalTys, orIll, pure_bind, bind_assoc]
    refine ih.bind fun v hv => ?_
    obtain ⟨r, rfl, hr⟩ := hv.frac
    rw [call_user hl]
    exact fun_ty (by omega) hr hf
  | @redenominate f e a T hl hf _ _ iha ihb =>
    simp only [userEval, eval, evalArgs, evalTys, orIll, pure_bind, bind_assoc]
    refine iha.bind fun v hv => ihb.bind fun w hw => ?_
    obtain ⟨r, rfl, hr⟩ := hv.frac
    obtain ⟨d, rfl, hd⟩ := hw.int
    rw [call_user hl]
    exact redenominate_ty (by omega) hr hd hf
  | @make f T A B a b hl _ _ iha ihb =>
    simp only [userEval, eval, evalArgs, evalTys, orIll, pure_bind, bind_assoc]
    refine iha.bind fun v hv => ihb.bind fun w hw => ?_
    obtain ⟨x, rfl, hx⟩ := hv.int
    obtain ⟨y, rfl, hy⟩ := hw.int
    rw [call_type hl]
    change (value (invoke library n ⟨N.«fraction», [.int T, .ops o]⟩ none N.«fraction» []
      [.int A x, .int B y])).Triple _ _
    rw [fraction_mk_ok (by omega)]
    refine map_triple (P := fun r => r.InRange T) ?_ fun r hr => ⟨rfl, rfl, hr⟩
    exact (toTy_triple hx).bind fun x hx => (toTy_triple hy).bind fun y hy => Triple.pure ⟨hx, hy⟩
  | @makeMix f W F A a b hl _ _ iha ihb =>
    simp only [userEval, eval, evalArgs, evalTys, orIll, pure_bind, bind_assoc]
    refine iha.bind fun v hv => ihb.bind fun w hw => ?_
    obtain ⟨x, rfl, hx⟩ := hv.int
    obtain ⟨r, rfl, hr⟩ := hw.frac
    rw [call_type hl]
    change (value (invoke library n (mixedOf W F o) none N.«mixed_number» []
      [.int A x, .frac F o r])).Triple _ _
    rw [mixed_of_two W F A F o x r (by omega), if_pos rfl]
    exact (toTy_triple hx).bind fun x hx => map_mixed_ty (mk'_ty hx hr)
  | method _ hf ih =>
    exact ih.bind fun v hv => method_ty (by omega) hv hf
  | convert hl ht _ ha ih =>
    simp only [userEval, eval, evalArgs, evalTys, orIll, pure_bind, bind_assoc]
    refine ih.bind fun v hv => ?_
    rw [call_type hl]
    exact castTo_ty (by omega) hv ht ha
  | cast hl ht _ ha ih =>
    simp only [userEval, eval, userEnv, hl, orIll, pure_bind]
    exact ih.bind fun v hv => castTo_ty (by omega) hv ht ha

/-! ## Statements -/

theorem Holds.cons {x : Nat} {v : Val} {t : UTy} (h : Holds o ents Γ) (hv : HasTy o v t) :
    Holds o ((x, v) :: ents) ((x, t) :: Γ) := by
  intro y s hy
  by_cases hxy : y = x
  · subst hxy
    rw [List.lookup_cons_self] at hy ⊢
    cases hy
    exact ⟨v, rfl, hv⟩
  · rw [lookup_ne hxy] at hy ⊢
    exact h y s hy

theorem Holds.same {x : Nat} {v : Val} {t : UTy} (h : Holds o ents Γ) (hv : HasTy o v t)
    (hx : Γ.lookup x = some t) : Holds o ((x, v) :: ents) Γ := by
  intro y s hy
  by_cases hxy : y = x
  · subst hxy
    rw [hx] at hy
    cases hy
    exact ⟨v, List.lookup_cons_self, hv⟩
  · rw [lookup_ne hxy]
    exact h y s hy

theorem Holds.drop {x : Nat} {t : UTy} (h : Holds o ents ((x, t) :: Γ))
    (hx : Γ.lookup x = none) : Holds o ents Γ := by
  intro y s hy
  have hxy : y ≠ x := by rintro rfl; rw [hx] at hy; cases hy
  exact h y s (by rwa [lookup_ne hxy])

theorem assignF_ty {L R : IntTy} {op : ArithOp} {l r : Raw} (hl : l.InRange L) (hr : r.InRange R) :
    (Fraction.assignF L R o op l r).Triple (fun s => s.InRange L) Arithmetic := by
  have hc : IntTy.common L L = L := IntTy.common_self L
  have key : ∀ {r' : Raw}, r'.InRange L →
      (Fraction.arith L L o op (.ff l r')).Triple (fun s => s.InRange L) Arithmetic := by
    intro r' hr'
    have := arith_ty (o := o) (op := op) (a := .ff l r') (L := L) (R := L) ⟨hl, hr'⟩
    rwa [hc] at this
  unfold Fraction.assignF
  split
  · rename_i h; subst h; exact key hr
  · exact (Raw.conv_triple r).bind fun s hs => key hs.1

theorem assignR_ty {L R : IntTy} {op : ArithOp} {l : Raw} {r : ℤ} (hl : l.InRange L)
    (hr : R.InRange r) :
    (Fraction.assignR L R o op l r).Triple (fun s => s.InRange L) Arithmetic := by
  have hc : IntTy.common L L = L := IntTy.common_self L
  have key : ∀ {r' : ℤ}, L.InRange r' →
      (Fraction.arith L L o op (.fr l r')).Triple (fun s => s.InRange L) Arithmetic := by
    intro r' hr'
    have := arith_ty (o := o) (op := op) (a := .fr l r') (L := L) (R := L) ⟨hl, hr'⟩
    rwa [hc] at this
  unfold Fraction.assignR
  split
  · rename_i h; subst h; exact key hr
  · exact (conv_triple r).bind fun s hs => key hs.1

theorem exec_ty {α : Type} {P : α → Prop} {g : Val → Env → Res α} {ret : UTy}
    (hn : policyDepth o ≤ n) {s : Stmt} (hs : StmtTy o tys ret Γ s)
    (hg : ∀ v env, HasTy o v ret → (g v env).Triple P Arithmetic) :
    ∀ {ents : List (Nat × Val)} {k : Env → Res α}, Holds o ents Γ →
      (∀ ents, Holds o ents Γ → (k (userEnv tys ents)).Triple P Arithmetic) →
      (exec library (invoke library n) none g s none (userEnv tys ents) k).Triple P Arithmetic := by
  have hn' := hn
  rw [policyDepth_eq] at hn'
  have := opsDepth_ge o
  induction hs with
  | nil => intro ents k hΓ hk; exact hk ents hΓ
  | ret he =>
    intro ents k hΓ hk
    refine (expr_ty hn hΓ he).bind fun v hv => ?_
    simp only [returned, pure_bind]
    exact hg v _ hv
  | decl he hx _ ih =>
    intro ents k hΓ hk
    refine (expr_ty hn hΓ he).bind fun v hv => ?_
    exact ih (ents := (_, v) :: ents) (hΓ.cons hv) fun ents h => hk ents (h.drop hx)
  | assign he hx ha _ ih =>
    intro ents k hΓ hk
    refine (expr_ty hn hΓ he).bind fun v hv => ?_
    obtain ⟨w, hw, hwt⟩ := hΓ _ _ hx
    simp only [userEnv, hw, orIll, pure_bind]
    refine (construct_ty (by omega) hv hwt.type ha).bind fun u hu => ?_
    exact ih (ents := (_, u) :: ents) (hΓ.same hu hx) hk
  | @update Γ x op e s t u he hx ha hb hop _ ih =>
    intro ents k hΓ hk
    refine (expr_ty hn hΓ he).bind fun v hv => ?_
    obtain ⟨w, hw, hwt⟩ := hΓ _ _ hx
    simp only [userEnv, hw, orIll, pure_bind]
    cases t with
    | bool => exact hb.elim
    | mixed W F => exact hb.elim
    | int A =>
      cases u <;> simp only [assignable] at ha
      rename_i B
      obtain ⟨i, rfl, hi⟩ := hwt.int
      refine (binary_ty (u := .int (A.common B)) (by omega) hwt hv (by simp [opTy, hop])).bind
        fun c hc => ?_
      refine (construct_ty (t := .int A) (by omega) hc (Or.inl rfl) trivial).bind
        fun d hd => ?_
      exact ih (ents := (_, d) :: ents) (hΓ.same hd hx) hk
    | frac A =>
      obtain ⟨l, rfl, hl⟩ := hwt.frac
      obtain ⟨aop, haop⟩ : ∃ aop, arithOf op = some aop := by
        cases op <;> simp_all [arithOps, arithOf]
      refine Triple.bind (P := fun c => HasTy o c (.frac A)) ?_ fun d hd =>
        ih (ents := (_, d) :: ents) (hΓ.same hd hx) hk
      cases u with
      | bool => simp only [assignable] at ha
      | int B =>
        obtain ⟨i, rfl, hi⟩ := hv.int
        rw [assignR_text haop A B l i (by omega)]
        exact map_triple (assignR_ty hl hi) fun s hs => ⟨rfl, rfl, hs⟩
      | frac B =>
        obtain ⟨r, rfl, hr⟩ := hv.frac
        rw [assignF_text haop A B l r (by omega)]
        exact map_triple (assignF_ty hl hr) fun s hs => ⟨rfl, rfl, hs⟩
      | mixed W F => simp only [assignable] at ha
  | ite hc _ _ _ iha ihb ihs =>
    intro ents k hΓ hk
    refine (expr_ty hn hΓ hc).bind fun v hv => ?_
    obtain ⟨b, rfl⟩ := hv.bool
    cases b
    · exact ihb hΓ fun ents h => ihs h hk
    · exact iha hΓ fun ents h => ihs h hk

theorem stmt_ty {ret : UTy} (hn : policyDepth o ≤ n) {s : Stmt} (hs : StmtTy o tys ret Γ s)
    (hΓ : Holds o ents Γ) :
    (userExec n tys ents s).Triple (fun r => OutcomeTy o ret Γ (some r)) Arithmetic :=
  exec_ty hn hs (fun _ _ h => Triple.pure h) hΓ fun _ h => Triple.pure h

/-! ## Code -/

theorem code_ty {ret : UTy} (hn : policyDepth o ≤ n) (fuel : Nat) {c : Code}
    (hc : CodeTy o tys ret Γ c) : ∀ {ents : List (Nat × Val)}, Holds o ents Γ →
      (runCode n tys fuel c ents).Triple (OutcomeTy o ret Γ) Arithmetic := by
  induction hc with
  | stmt hs =>
    intro ents hΓ
    rw [runCode, map_eq_pure_bind]
    exact (stmt_ty hn hs hΓ).bind fun r hr => Triple.pure hr
  | seq _ _ iha ihb =>
    intro ents hΓ
    refine (iha hΓ).bind fun r hr => ?_
    rcases r with _ | v | e
    · exact Triple.pure trivial
    · exact Triple.pure hr
    · exact ihb hr
  | @«while» c b hc _ ih =>
    intro ents hΓ
    rw [runCode]
    have key : ∀ (j : Nat) {ents : List (Nat × Val)}, Holds o ents Γ →
        (loop (fun ents => userEval n tys ents c) (runCode n tys fuel b) j ents).Triple
          (OutcomeTy o ret Γ) Arithmetic := by
      intro j
      induction j with
      | zero => intro ents _; exact Triple.pure trivial
      | succ j ihj =>
        intro ents hΓ
        refine (expr_ty hn hΓ hc).bind fun v hv => ?_
        obtain ⟨x, rfl⟩ := hv.bool
        cases x
        · exact Triple.pure hΓ
        · refine (ih hΓ).bind fun r hr => ?_
          rcases r with _ | v | e
          · exact Triple.pure trivial
          · exact Triple.pure hr
          · exact ihj hr
    exact key fuel hΓ

/-! ## Limited runs and runs -/

theorem loop_mono {test : List (Nat × Val) → Res Val} {body body' : List (Nat × Val) → Res Outcome}
    (hb : ∀ {ents out}, body ents ⇓ some out → body' ents ⇓ some out) :
    ∀ {j j' : Nat} {ents : List (Nat × Val)} {out : Ends Val (List (Nat × Val))}, j ≤ j' →
      loop test body j ents ⇓ some out → loop test body' j' ents ⇓ some out := by
  intro j
  induction j with
  | zero => intro j' ents out _ h; cases pure_clean h
  | succ j ih =>
    intro j' ents out hj h
    obtain ⟨j', rfl⟩ : ∃ i, j' = i + 1 := ⟨j' - 1, by omega⟩
    obtain ⟨v, hv, h⟩ := bind_eq_clean.1 h
    refine bind_eq_clean.2 ⟨v, hv, ?_⟩
    split at h
    · obtain ⟨r, hr, h⟩ := bind_eq_clean.1 h
      split at h
      · rename_i e
        exact bind_eq_clean.2 ⟨_, hb hr, ih (by omega) h⟩
      · rename_i hne
        have := pure_clean h
        subst this
        refine bind_eq_clean.2 ⟨_, hb hr, ?_⟩
        cases out with
        | ret v => rfl
        | next e => exact absurd rfl (hne e)
    · exact h
    · exact h

theorem runCode_mono {fuel fuel' : Nat} (hf : fuel ≤ fuel') {c : Code} :
    ∀ {ents : List (Nat × Val)} {out : Ends Val (List (Nat × Val))},
      runCode n tys fuel c ents ⇓ some out → runCode n tys fuel' c ents ⇓ some out := by
  induction c with
  | stmt s => exact fun h => h
  | seq a b iha ihb =>
    intro ents out h
    obtain ⟨r, hr, h⟩ := bind_eq_clean.1 h
    split at h
    · exact bind_eq_clean.2 ⟨_, iha hr, ihb h⟩
    · rename_i hne
      have := pure_clean h
      subst this
      refine bind_eq_clean.2 ⟨_, iha hr, ?_⟩
      cases out with
      | ret v => rfl
      | next e => exact absurd rfl (hne e)
  | «while» c b ih => exact fun h => loop_mono ih hf h

theorem runs_of_runCode {fuel : Nat} {c : Code} :
    ∀ {ents : List (Nat × Val)} {out : Ends Val (List (Nat × Val))},
      runCode n tys fuel c ents ⇓ some out → Runs n tys c ents out := by
  induction c with
  | stmt s =>
    intro ents out h
    rw [runCode, map_eq_pure_bind] at h
    obtain ⟨r, hr, h⟩ := bind_eq_clean.1 h
    cases pure_clean h
    exact .stmt hr
  | seq a b iha ihb =>
    intro ents out h
    obtain ⟨r, hr, h⟩ := bind_eq_clean.1 h
    split at h
    · exact .seqNext (iha hr) (ihb h)
    · rename_i hne
      have := pure_clean h
      subst this
      cases out with
      | ret v => exact .seqRet (iha hr)
      | next e => exact absurd rfl (hne e)
  | «while» c b ih =>
    have key : ∀ {j : Nat} {ents : List (Nat × Val)} {out : Ends Val (List (Nat × Val))},
        loop (fun ents => userEval n tys ents c) (runCode n tys fuel b) j ents ⇓ some out →
        Runs n tys (.while c b) ents out := by
      intro j
      induction j with
      | zero => intro ents out h; cases pure_clean h
      | succ j ihj =>
        intro ents out h
        obtain ⟨v, hv, h⟩ := bind_eq_clean.1 h
        split at h
        · obtain ⟨r, hr, h⟩ := bind_eq_clean.1 h
          split at h
          · exact .again hv (ih hr) (ihj h)
          · rename_i hne
            have := pure_clean h
            subst this
            cases out with
            | ret v => exact .leave hv (ih hr)
            | next e => exact absurd rfl (hne e)
        · cases pure_clean h
          exact .done hv
        · cases h
    intro ents out h
    exact key h

theorem runCode_of_runs {c : Code} {out : Ends Val (List (Nat × Val))} (h : Runs n tys c ents out) :
    ∃ fuel, runCode n tys fuel c ents ⇓ some out := by
  induction h with
  | @stmt s ents out h =>
    refine ⟨0, ?_⟩
    rw [runCode, map_eq_pure_bind]
    exact bind_eq_clean.2 ⟨out, h, rfl⟩
  | seqRet _ ih =>
    obtain ⟨f, hf⟩ := ih
    exact ⟨f, bind_eq_clean.2 ⟨_, hf, rfl⟩⟩
  | seqNext _ _ iha ihb =>
    obtain ⟨f, hf⟩ := iha
    obtain ⟨g, hg⟩ := ihb
    exact ⟨max f g, bind_eq_clean.2 ⟨_, runCode_mono (le_max_left _ _) hf,
      runCode_mono (le_max_right _ _) hg⟩⟩
  | done h => exact ⟨1, bind_eq_clean.2 ⟨_, h, rfl⟩⟩
  | leave h _ ih =>
    obtain ⟨f, hf⟩ := ih
    exact ⟨f + 1, bind_eq_clean.2 ⟨_, h, bind_eq_clean.2
      ⟨_, runCode_mono (Nat.le_succ f) hf, rfl⟩⟩⟩
  | @again c b ents ents' out h _ _ ih ihw =>
    obtain ⟨f, hf⟩ := ih
    obtain ⟨g, hg⟩ := ihw
    refine ⟨max f g + 1, bind_eq_clean.2 ⟨_, h, bind_eq_clean.2
      ⟨_, runCode_mono (le_trans (le_max_left f g) (Nat.le_succ _)) hf, ?_⟩⟩⟩
    exact loop_mono (fun h => runCode_mono (le_trans (le_max_right f g) (Nat.le_succ _)) h)
      (le_max_right f g) hg

/-! ## Code that means something ends -/

theorem does_ends {M : Mem} {c : Code} {out : Ends Meaning Mem} (hn : policyDepth o ≤ n)
    (hd : Does o tys c M out) :
    ∃ k, ∀ ents fuel, MeansAll o ents M → k ≤ fuel →
      (∀ r, runCode n tys fuel c ents ⇓ r → ∃ out', r = some out') ∧
      (∀ t b, c = .while t b → ∀ j, k ≤ j → ∀ r,
        loop (fun ents => userEval n tys ents t) (runCode n tys fuel b) j ents ⇓ r →
          ∃ out', r = some out') := by
  have fin : ∀ {t b ents k fuel}, k ≤ fuel → (∀ j, k ≤ j → ∀ r,
      loop (fun ents => userEval n tys ents t) (runCode n tys fuel b) j ents ⇓ r →
        ∃ out', r = some out') →
      ∀ r, runCode n tys fuel (.while t b) ents ⇓ r → ∃ out', r = some out' :=
    fun hk h r hr => h _ hk r hr
  induction hd with
  | stmt hs =>
    refine ⟨0, fun ents fuel hM _ => ⟨fun r hr => ?_, fun t b e => by cases e⟩⟩
    rw [runCode, map_eq_pure_bind] at hr
    obtain ⟨a, -, hr⟩ := bind_eq_clean.1 hr
    exact ⟨a, pure_clean hr⟩
  | seqRet ha ih =>
    obtain ⟨k, hk⟩ := ih
    refine ⟨k, fun ents fuel hM hf => ⟨fun r hr => ?_, fun t b e => by cases e⟩⟩
    obtain ⟨x, hx, hr⟩ := bind_eq_clean.1 hr
    obtain ⟨x, rfl⟩ := (hk ents fuel hM hf).1 _ hx
    have hs := code_sound hn ha hM (runs_of_runCode hx)
    cases x with
    | ret v => exact ⟨_, pure_clean hr⟩
    | next e => exact hs.elim
  | seqNext ha hb iha ihb =>
    obtain ⟨k, hk⟩ := iha
    obtain ⟨l, hl⟩ := ihb
    refine ⟨max k l, fun ents fuel hM hf => ⟨fun r hr => ?_, fun t b e => by cases e⟩⟩
    obtain ⟨x, hx, hr⟩ := bind_eq_clean.1 hr
    obtain ⟨x, rfl⟩ := (hk ents fuel hM (by omega)).1 _ hx
    have hs := code_sound hn ha hM (runs_of_runCode hx)
    cases x with
    | ret v => exact hs.elim
    | next e => exact (hl e fuel hs (by omega)).1 _ hr
  | @done c b M hc =>
    refine ⟨1, fun ents fuel hM hf => ?_⟩
    suffices h : ∀ j, 1 ≤ j → ∀ r,
        loop (fun ents => userEval n tys ents c) (runCode n tys fuel b) j ents ⇓ r →
          ∃ out', r = some out' from
      ⟨fin hf h, fun t b e => by cases e; exact h⟩
    intro j hj r hr
    obtain ⟨j, rfl⟩ : ∃ i, j = i + 1 := ⟨j - 1, by omega⟩
    obtain ⟨v, hv, hr⟩ := bind_eq_clean.1 hr
    have := (sem_sound hn hM hc hv).bool
    subst this
    exact ⟨_, pure_clean hr⟩
  | @leave c b M m hc hb ih =>
    obtain ⟨k, hk⟩ := ih
    refine ⟨k + 1, fun ents fuel hM hf => ?_⟩
    suffices h : ∀ j, k + 1 ≤ j → ∀ r,
        loop (fun ents => userEval n tys ents c) (runCode n tys fuel b) j ents ⇓ r →
          ∃ out', r = some out' from
      ⟨fin hf h, fun t b e => by cases e; exact h⟩
    intro j hj r hr
    obtain ⟨j, rfl⟩ : ∃ i, j = i + 1 := ⟨j - 1, by omega⟩
    obtain ⟨v, hv, hr⟩ := bind_eq_clean.1 hr
    have := (sem_sound hn hM hc hv).bool
    subst this
    obtain ⟨x, hx, hr⟩ := bind_eq_clean.1 hr
    obtain ⟨x, rfl⟩ := (hk ents fuel hM (by omega)).1 _ hx
    have hs := code_sound hn hb hM (runs_of_runCode hx)
    cases x with
    | ret v => exact ⟨_, pure_clean hr⟩
    | next e => exact hs.elim
  | @again c b M M' out hc hb hw ihb ihw =>
    obtain ⟨k, hk⟩ := ihb
    obtain ⟨l, hl⟩ := ihw
    refine ⟨max k l + 1, fun ents fuel hM hf => ?_⟩
    suffices h : ∀ j, max k l + 1 ≤ j → ∀ r,
        loop (fun ents => userEval n tys ents c) (runCode n tys fuel b) j ents ⇓ r →
          ∃ out', r = some out' from
      ⟨fin hf h, fun t b e => by cases e; exact h⟩
    intro j hj r hr
    obtain ⟨j, rfl⟩ : ∃ i, j = i + 1 := ⟨j - 1, by omega⟩
    obtain ⟨v, hv, hr⟩ := bind_eq_clean.1 hr
    have := (sem_sound hn hM hc hv).bool
    subst this
    obtain ⟨x, hx, hr⟩ := bind_eq_clean.1 hr
    obtain ⟨x, rfl⟩ := (hk ents fuel hM (by omega)).1 _ hx
    have hs := code_sound hn hb hM (runs_of_runCode hx)
    cases x with
    | ret v => exact hs.elim
    | next e => exact (hl e fuel hs (by omega)).2 c b rfl j (by omega) _ hr

end Ieme.User
