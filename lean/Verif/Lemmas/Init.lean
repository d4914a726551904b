import Verif.Spec.Init
import Verif.Lemmas.Exact
import Verif.Lemmas.MixedNumber
import Verif.Props.Convert

namespace Ieme.Init

variable {S X : Ty} {v : Val}

theorem implicit_eq (S X : Ty) : implicit S X =
    if S = X then .calls .copy none else
    match S, X with
    | .int _, .int _ | .flt, .int _ => .calls .arithmetic none
    | .int _, .frac _ _ | .flt, .frac _ _ => .calls .fracRep none
    | .int _, .mixed _ _ _ | .flt, .mixed _ _ _ => .calls .mixedWhole none
    | .int _, .lit _ _ | .flt, .lit _ _ => .calls .litValue none
    | .ratio _ _, .frac _ _ => .calls .fracRatio none
    | .raw _, .raw _ => .calls .rawOther none
    | .raw A, .frac T _ => if A = T then .calls .fracRaw none else .noViable
    | .frac _ o, .frac _ o' => if o = o' then .calls .fracOther none else .noViable
    | .frac _ o, .mixed _ _ o' => if o = o' then .calls .mixedFrac none else .noViable
    | .mixed W F o, .frac T o' =>
      if IntTy.common W F = T ∧ o = o' then .calls .toFraction none else .noViable
    | _, _ => .noViable := by
  unfold implicit
  split
  · rfl
  rename_i h
  cases S <;> cases X <;>
    simp [builtin, copyCands, ctors, conversions, Param.standard, best, Cand.better,
      Param.order, Rank.toNat] at h ⊢
  all_goals (try split_ifs) <;> simp_all [Param.standard, best, Cand.better, Param.order, Rank.toNat, List.filter]

variable {f : Fn} {e : Bool} {T : IntTy} {o : Ops} {Y : Ty}

theorem argument_int : argument S ⟨f, e, .int T⟩ =
    match S with
    | .int A => some ⟨f, none, if A = T then .exact else .conversion, 0⟩
    | .flt => some ⟨f, none, .conversion, 0⟩
    | _ => none := by
  cases S <;> rfl

theorem argument_cls : argument S ⟨f, e, .cls Y⟩ =
    if S = Y then some ⟨f, none, .exact, 0⟩
    else match implicit S Y with
    | .calls g _ => some ⟨f, some (g, Y), .user, 0⟩
    | _ => none := by
  by_cases h : S = Y
  · subst h; cases S <;> simp [argument, Param.standard, Param.order]
  · have : Param.standard (.cls Y) S = none := by cases S <;> simp_all [Param.standard]
    simp only [argument, this, h, if_false, Param.order]
    cases implicit S Y <;> rfl

theorem argument_anyRaw : argument S ⟨f, e, .anyRaw⟩ =
    match S with
    | .raw _ => some ⟨f, none, .exact, 1⟩
    | _ => none := by
  cases S <;> rfl

theorem argument_anyRatio : argument S ⟨f, e, .anyRatio⟩ =
    match S with
    | .ratio _ _ => some ⟨f, none, .exact, 1⟩
    | _ => none := by
  cases S <;> rfl

theorem argument_anyFracOps : argument S ⟨f, e, .anyFracOps⟩ =
    match S with
    | .frac _ _ => some ⟨f, none, .exact, 2⟩
    | _ => none := by
  cases S <;> rfl

theorem argument_anyFrac : argument S ⟨f, e, .anyFrac o⟩ =
    match S with
    | .frac _ o' => if o' = o then some ⟨f, none, .exact, 1⟩ else none
    | _ => none := by
  cases S <;> try rfl
  rename_i A o'
  by_cases h : o' = o <;> simp [argument, Param.standard, Param.order, h]

theorem direct_raw (S : Ty) (T : IntTy) : direct S (.raw T) =
    match S with
    | .raw A => if A = T then .calls .copy none else .calls .rawOther none
    | _ => .noViable := by
  cases S with
  | raw A =>
    by_cases h : A = T <;> simp [direct, ctors, argument_cls, argument_anyRaw, implicit_eq, best,
      h, Cand.better, Rank.toNat]
  | _ => simp [direct, ctors, argument_cls, argument_anyRaw, implicit_eq, best]

theorem direct_lit (S : Ty) (s : Bool) (o : Ops) : direct S (.lit s o) =
    match S with
    | .int _ | .flt => .calls .litValue none
    | .lit s' o' => if s' = s ∧ o' = o then .calls .copy none else .noViable
    | _ => .noViable := by
  cases S with
  | lit s' o' =>
    by_cases h : s' = s ∧ o' = o <;>
      simp [direct, ctors, argument_cls, argument_int, implicit_eq, best, h, Cand.better,
        Rank.toNat]
  | int A =>
    by_cases h : A = litTy s <;>
      simp [direct, ctors, argument_cls, argument_int, implicit_eq, best, h, Cand.better,
        Rank.toNat]
  | _ => simp [direct, ctors, argument_cls, argument_int, implicit_eq, best, Cand.better,
      Rank.toNat]

theorem direct_mixed (S : Ty) (W F : IntTy) (o : Ops) : direct S (.mixed W F o) =
    match S with
    | .int _ | .flt => .calls .mixedWhole none
    | .frac _ o' => if o' = o then .calls .mixedFrac none else .calls .mixedOps none
    | .mixed W' F' o' => if W' = W ∧ F' = F ∧ o' = o then .calls .copy none else .noViable
    | _ => .noViable := by
  cases S with
  | mixed W' F' o' =>
    by_cases h : W' = W ∧ F' = F ∧ o' = o <;>
      simp [direct, ctors, argument_cls, argument_int, argument_anyFrac, argument_anyFracOps,
        implicit_eq, best, h, Cand.better, Rank.toNat]
  | int A =>
    by_cases h : A = W <;>
      simp [direct, ctors, argument_cls, argument_int, argument_anyFrac, argument_anyFracOps,
        implicit_eq, best, h, Cand.better, Rank.toNat]
  | frac A o' =>
    by_cases h : o' = o <;>
      simp [direct, ctors, argument_cls, argument_int, argument_anyFrac, argument_anyFracOps,
        implicit_eq, best, h, Cand.better, Rank.toNat]
  | _ => simp [direct, ctors, argument_cls, argument_int, argument_anyFrac, argument_anyFracOps,
        implicit_eq, best, Cand.better, Rank.toNat]

theorem direct_frac (S : Ty) (T : IntTy) (o : Ops) : direct S (.frac T o) =
    match S with
    | .int _ | .flt => .calls .fracRep none
    | .ratio _ _ => .calls .fracRatio none
    | .raw A => if A = T then .calls .fracRaw none else .calls .fracRaw (some (.rawOther, .raw T))
    | .frac A o' =>
      if A = T ∧ o' = o then .calls .copy none
      else if o' = o then .calls .fracOther none
      else .calls .fracOps none
    | .mixed W F o' =>
      if IntTy.common W F = T ∧ o' = o then .calls .copy (some (.toFraction, .frac T o))
      else .noViable
    | _ => .noViable := by
  cases S with
  | mixed W F o' =>
    by_cases h : IntTy.common W F = T ∧ o' = o <;>
      simp [direct, ctors, argument_cls, argument_int, argument_anyFrac, argument_anyFracOps,
        argument_anyRatio, implicit_eq, best, h, Cand.better, Rank.toNat]
  | int A =>
    by_cases h : A = T <;>
      simp [direct, ctors, argument_cls, argument_int, argument_anyFrac, argument_anyFracOps,
        argument_anyRatio, implicit_eq, best, h, Cand.better, Rank.toNat]
  | raw A =>
    by_cases h : A = T <;>
      simp [direct, ctors, argument_cls, argument_int, argument_anyFrac, argument_anyFracOps,
        argument_anyRatio, implicit_eq, best, h, Cand.better, Rank.toNat]
  | frac A o' =>
    by_cases h : o' = o <;> by_cases h' : A = T <;>
      simp [direct, ctors, argument_cls, argument_int, argument_anyFrac, argument_anyFracOps,
        argument_anyRatio, implicit_eq, best, h, h', Cand.better, Rank.toNat]
  | _ => simp [direct, ctors, argument_cls, argument_int, argument_anyFrac, argument_anyFracOps,
        argument_anyRatio, implicit_eq, best, Cand.better, Rank.toNat]

theorem direct_eq (S X : Ty) : direct S X =
    if S = X then .calls .copy none else
    match S, X with
    | .int _, .int _ | .flt, .int _ => .calls .arithmetic none
    | .int _, .frac _ _ | .flt, .frac _ _ => .calls .fracRep none
    | .int _, .mixed _ _ _ | .flt, .mixed _ _ _ => .calls .mixedWhole none
    | .int _, .lit _ _ | .flt, .lit _ _ => .calls .litValue none
    | .ratio _ _, .frac _ _ => .calls .fracRatio none
    | .raw _, .raw _ => .calls .rawOther none
    | .raw A, .frac T _ =>
      if A = T then .calls .fracRaw none else .calls .fracRaw (some (.rawOther, .raw T))
    | .frac _ o, .frac _ o' => if o = o' then .calls .fracOther none else .calls .fracOps none
    | .frac _ o, .mixed _ _ o' => if o = o' then .calls .mixedFrac none else .calls .mixedOps none
    | .mixed W F o, .frac T o' =>
      if IntTy.common W F = T ∧ o = o' then .calls .copy (some (.toFraction, .frac T o'))
      else .noViable
    | _, _ => .noViable := by
  cases X with
  | raw T => rw [direct_raw]; cases S <;> simp
  | lit s o => rw [direct_lit]; cases S <;> simp
  | frac T o => rw [direct_frac]; cases S <;> simp
  | mixed W F o => rw [direct_mixed]; cases S <;> simp
  | _ => cases S <;> simp [direct, builtin]

/-- The same constructor is called, or the conversion function and then the copy constructor. -/
theorem implicit_direct {i : Option (Fn × Ty)} (h : implicit S X = .calls f i) : i = none ∧
    (direct S X = .calls f none ∨
      f = .toFraction ∧ direct S X = .calls .copy (some (.toFraction, X))) := by
  rw [implicit_eq] at h
  rw [direct_eq]
  by_cases e : S = X
  · simp only [e, if_true, Outcome.calls.injEq] at h ⊢
    obtain ⟨rfl, rfl⟩ := h
    simp
  rw [if_neg e] at h
  rw [if_neg e]
  cases S <;> cases X <;> simp at h ⊢ <;>
    first
    | (obtain ⟨rfl, rfl⟩ := h; simp; done)
    | (split_ifs at h with e'
       simp only [Outcome.calls.injEq] at h
       obtain ⟨rfl, rfl⟩ := h
       simp [e'])

open Res IntTy

variable {w : Val} {q : ℚ} {n : ℤ}

theorem compiles_of_ok {form : Form} {b : Bool} (h : init form S X v = .ok w b) :
    Compiles form S X := by
  unfold init at h
  split at h
  · exact ⟨_, _, by assumption⟩
  · exact ⟨_, _, by assumption⟩
  · cases h

theorem mk_whole (W F : IntTy) (o : Ops) (n : ℤ) : Mixed.mk' W F o n ⇓ ⟨n, ⟨0, 1⟩⟩ := by
  simp [Mixed.mk', Mixed.fix, Mixed.fixImproper, Mixed.fixSigns, Fraction.default, Raw.isImproper,
    Raw.isProper, Raw.isDefined, mathAbs, Raw.isNegative, Raw.isPositive, Res.pure_def]

theorem direct_means (hS : S ≠ .flt) (hv : Means S v q) (h : init .paren S X v ⇓ w) :
    Means X w q := by
  simp only [init, resolve, direct_eq] at h
  by_cases e : S = X
  · subst e
    rw [if_pos rfl] at h
    simp only [run, pure_eq_ok] at h
    rw [← h.1]; exact hv
  rw [if_neg e] at h
  cases S <;> cases X <;> simp only [reduceCtorEq] at h hS <;> try contradiction
  all_goals cases v <;> simp only [Means] at hv
  all_goals try contradiction
  case neg.int.int.int S T n =>
    obtain ⟨m, hm, h1⟩ := bind_eq_clean.1 h
    obtain ⟨-, rfl⟩ := conv_clean.1 hm
    obtain rfl := (pure_eq_ok.1 h1).1
    exact hv
  case neg.int.frac.int S T o n =>
    obtain ⟨m, hm, h1⟩ := bind_eq_clean.1 h
    obtain ⟨-, rfl⟩ := conv_clean.1 hm
    obtain rfl := (pure_eq_ok.1 h1).1
    exact ⟨one_ne_zero, by simp [Fraction.mk, hv]⟩
  case neg.int.mixed.int S W F o n =>
    obtain ⟨m, hm, h1⟩ := bind_eq_clean.1 h
    obtain ⟨-, rfl⟩ := conv_clean.1 hm
    rw [mk_whole] at h1
    obtain rfl := (pure_eq_ok.1 h1).1
    exact ⟨0, ⟨one_ne_zero, by simp⟩, by simp [hv]⟩
  case neg.int.lit.int S s o n =>
    obtain ⟨m, hm, h1⟩ := bind_eq_clean.1 h
    obtain ⟨-, rfl⟩ := conv_clean.1 hm
    obtain rfl := (pure_eq_ok.1 h1).1
    exact hv
  case neg.ratio.frac.ratio N D T o =>
    obtain ⟨m, hm, h1⟩ := bind_eq_clean.1 h
    obtain rfl := (pure_eq_ok.1 h1).1
    rw [hv.2]
    exact (C41_ratio_exact hm).2.1
  case neg.raw.raw.raw S T r =>
    obtain ⟨m, hm, h1⟩ := bind_eq_clean.1 h
    obtain ⟨-, rfl⟩ := Raw.conv_clean.1 hm
    obtain rfl := (pure_eq_ok.1 h1).1
    exact hv
  case neg.raw.frac.raw S T o r =>
    by_cases c : S = T
    · rw [if_pos c] at h
      obtain rfl := (pure_eq_ok.1 h).1
      exact hv
    · rw [if_neg c] at h
      obtain ⟨m, hm, h1⟩ := bind_eq_clean.1 h
      obtain ⟨g, hg, h2⟩ := bind_eq_clean.1 hm
      obtain ⟨-, rfl⟩ := Raw.conv_clean.1 hg
      obtain rfl := (pure_eq_ok.1 h2).1
      obtain rfl := (pure_eq_ok.1 h1).1
      exact hv
  case neg.frac.frac.frac S o T o' r =>
    by_cases c : o = o'
    all_goals
      first | rw [if_pos c] at h | rw [if_neg c] at h
      obtain ⟨m, hm, h1⟩ := bind_eq_clean.1 h
      obtain ⟨-, rfl⟩ := Raw.conv_clean.1 hm
      obtain rfl := (pure_eq_ok.1 h1).1
      exact hv
  case neg.frac.mixed.frac S o W F o' r =>
    by_cases c : o = o'
    · rw [if_pos c] at h
      obtain ⟨m, hm, h1⟩ := bind_eq_clean.1 h
      obtain rfl := (pure_eq_ok.1 h1).1
      exact (Mixed.ofFraction_ok hm).2.2.2 _ hv
    · rw [if_neg c] at h
      obtain ⟨g, hg, h1⟩ := bind_eq_clean.1 h
      obtain ⟨-, rfl⟩ := Raw.conv_clean.1 hg
      obtain ⟨m, hm, h2⟩ := bind_eq_clean.1 h1
      obtain rfl := (pure_eq_ok.1 h2).1
      exact (Mixed.ofFraction_ok hm).2.2.2 _ hv
  case neg.mixed.frac.mixed W F o T o' m =>
    by_cases c : IntTy.common W F = T ∧ o = o'
    · rw [if_pos c] at h
      obtain ⟨g, hg, h1⟩ := bind_eq_clean.1 h
      obtain ⟨g', hg', h2⟩ := bind_eq_clean.1 hg
      obtain rfl := (pure_eq_ok.1 h2).1
      obtain rfl := (pure_eq_ok.1 h1).1
      exact Mixed.asFraction_ok hv hg'
    · rw [if_neg c] at h
      cases h

/-- An object that holds an integer. -/
def whole : Ty → ℤ → Val
  | .int _, n => .int n
  | .lit _ _, n => .lit n
  | .mixed _ _ _, n => .mixed ⟨n, ⟨0, 1⟩⟩
  | _, n => .frac ⟨n, 1⟩

theorem whole_means (hX : integerParam X = some T) (n : ℤ) : Means X (whole X n) n := by
  cases X <;> simp only [integerParam, reduceCtorEq] at hX
  · rfl
  · exact ⟨one_ne_zero, by simp⟩
  · exact ⟨0, ⟨one_ne_zero, by simp⟩, by simp⟩
  · rfl

theorem init_arith (hS : S = .flt ∨ ∃ U, S = .int U) (hX : integerParam X = some T) (h : S ≠ X)
    (v : Val) : init .paren S X v = (toInt T v).bind fun n => pure (whole X n) := by
  simp only [init, resolve, direct_eq, if_neg h]
  rcases hS with rfl | ⟨U, rfl⟩ <;> cases X <;> simp only [integerParam, reduceCtorEq] at hX <;>
    cases hX
  all_goals first
    | rfl
    | (simp only [run, mk_whole]; rfl)

theorem toInt_flt (x : ℚ) : toInt T (.flt (some x)) =
    if T.InRange (ratTrunc x) then pure (ratTrunc x) else .fault .overflow := by
  have : x.num.tdiv x.den = ratTrunc x := by
    rw [← ratTrunc_div_pos _ _ x.den_pos, Rat.num_div_den]
  simp only [toInt, this]

theorem init_parts {A : IntTy} {r : Raw} (hS : rep S = some A) (hX : rep X = some T)
    (hc : Compiles .paren S X) (hv : parts v = some r) (hr : Valid S v) :
    (∃ w, init .paren S X v ⇓ w) ↔ r.InRange T := by
  obtain ⟨f, i, hc⟩ := hc
  have key : ∀ {g : Raw → Val}, (∃ w, (r.conv T >>= fun y => pure (g y)) ⇓ w) ↔ r.InRange T := by
    intro g
    constructor
    · rintro ⟨w, h⟩
      obtain ⟨y, hy, -⟩ := bind_eq_clean.1 h
      exact (Raw.conv_clean.1 hy).1
    · intro h
      exact ⟨g r, bind_eq_clean.2 ⟨r, Raw.conv_clean.2 ⟨h, rfl⟩, rfl⟩⟩
  simp only [init, resolve, direct_eq] at hc ⊢
  by_cases e : S = X
  · subst e
    cases hS.symm.trans hX
    rw [if_pos rfl]
    refine ⟨fun _ => ?_, fun _ => ⟨v, rfl⟩⟩
    cases S <;> simp only [rep, reduceCtorEq] at hS <;> cases v <;>
      simp only [parts, reduceCtorEq] at hv <;> cases hS <;> cases hv <;> simpa [Valid] using hr
  simp only [if_neg e] at hc ⊢
  cases S <;> cases X <;> simp only [rep, reduceCtorEq] at hS hX <;> cases v <;>
    simp only [parts, Valid, reduceCtorEq] at hv hr <;> cases hS <;> cases hX <;> cases hv
  · exact key
  · by_cases c : A = T
    · subst c
      exact ⟨fun _ => hr, fun _ => ⟨_, by simp only [if_true]; rfl⟩⟩
    · simp only [if_neg c]
      constructor
      · rintro ⟨w, h⟩
        obtain ⟨y, hy, -⟩ := bind_eq_clean.1 h
        exact key.1 ⟨_, hy⟩
      · intro h
        exact ⟨_, bind_eq_clean.2 ⟨_, bind_eq_clean.2 ⟨_, Raw.conv_clean.2 ⟨h, rfl⟩, rfl⟩, rfl⟩⟩
  · cases hc
  · dsimp only
    split_ifs
    · exact key
    · exact key

end Ieme.Init
