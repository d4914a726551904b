import Verif.Lemmas.Fraction
import Verif.Lemmas.ToSafe

/-!
# Conversions, completely
-/

namespace Ieme

open Res IntTy

variable {T L R C S : IntTy}

theorem conv_mod (x : ℤ) : ∃ y w, T.conv x = .ok y w ∧ (T.InRange y ∧ y ≡ x [ZMOD 2 ^ T.bits]) ∧
    (w = true ↔ ¬ T.InRange x) := by
  by_cases h : T.InRange x
  · exact ⟨x, false, by simp [IntTy.conv, h], ⟨h, rfl⟩, by simp [h]⟩
  · exact ⟨T.wrap x, true, by simp [IntTy.conv, h], ⟨T.wrap_inRange x, wrap_cong x⟩, by simp [h]⟩

theorem Raw.conv_mod (f : Raw) : ∃ g w, f.conv T = .ok g w ∧ f.ReducedMod T g ∧
    (w = true ↔ ¬ f.InRange T) := by
  obtain ⟨n, w1, h1, ⟨a1, b1⟩, c1⟩ := Ieme.conv_mod (T := T) f.num
  obtain ⟨d, w2, h2, ⟨a2, b2⟩, c2⟩ := Ieme.conv_mod (T := T) f.den
  refine ⟨⟨n, d⟩, w1 || w2, ?_, ⟨⟨a1, a2⟩, b1, b2⟩, ?_⟩
  · exact bind_eq_ok.2 ⟨n, w1, w2, h1, bind_eq_ok.2 ⟨d, w2, false, h2, rfl, by simp⟩, rfl⟩
  · rw [Raw.InRange, Bool.or_eq_true, c1, c2]; tauto

theorem cast_rep_mod {x : ℤ} (hx : S.InRange x) : ∃ y w,
    (if S = C then (pure x : Res ℤ) else C.conv x) = .ok y w ∧
    (C.InRange y ∧ y ≡ x [ZMOD 2 ^ C.bits]) ∧ (w = true ↔ ¬ C.InRange x) := by
  by_cases e : S = C
  · subst e
    exact ⟨x, false, by rw [if_pos rfl]; rfl, ⟨hx, rfl⟩, by simp [hx]⟩
  · rw [if_neg e]; exact conv_mod x

theorem cast_raw_mod {f : Raw} (hf : f.InRange S) : ∃ g w,
    (if S = C then (pure f : Res Raw) else f.conv C) = .ok g w ∧
    f.ReducedMod C g ∧ (w = true ↔ ¬ f.InRange C) := by
  by_cases e : S = C
  · subst e
    exact ⟨f, false, by rw [if_pos rfl]; rfl, ⟨hf, rfl, rfl⟩, by simp [hf]⟩
  · rw [if_neg e]; exact Raw.conv_mod f

theorem Fraction.toCommon_mod {a : Args} (ha : a.HaveTypes L R) : ∃ b w,
    Fraction.toCommon L R a = .ok b w ∧ a.ReducedMod (IntTy.common L R) b ∧
    (w = true ↔ ¬ a.InRange (IntTy.common L R)) := by
  have fin : ∀ {α β : Type} {x : Res α} {y : Res β} {u : α} {v : β} {w1 w2 : Bool} {k : α → β → Args},
      x = .ok u w1 → y = .ok v w2 →
      (x >>= fun l => y >>= fun r => pure (k l r)) = .ok (k u v) (w1 || w2) := by
    intro α β x y u v w1 w2 k h1 h2
    exact bind_eq_ok.2 ⟨u, w1, w2, h1, bind_eq_ok.2 ⟨v, w2, false, h2, rfl, by simp⟩, rfl⟩
  cases a with
  | ff l r =>
    obtain ⟨l', w1, h1, c1, i1⟩ := cast_raw_mod (C := IntTy.common L R) ha.1
    obtain ⟨r', w2, h2, c2, i2⟩ := cast_raw_mod (C := IntTy.common L R) ha.2
    refine ⟨_, _, fin h1 h2, ⟨c1, c2⟩, ?_⟩
    rw [Bool.or_eq_true, i1, i2, Args.InRange]; tauto
  | fr l r =>
    obtain ⟨l', w1, h1, c1, i1⟩ := cast_raw_mod (C := IntTy.common L R) ha.1
    obtain ⟨r', w2, h2, c2, i2⟩ := cast_rep_mod (C := IntTy.common L R) ha.2
    refine ⟨_, _, fin h1 h2, ⟨c1, c2⟩, ?_⟩
    rw [Bool.or_eq_true, i1, i2, Args.InRange]; tauto
  | rf l r =>
    obtain ⟨l', w1, h1, c1, i1⟩ := cast_rep_mod (C := IntTy.common L R) ha.1
    obtain ⟨r', w2, h2, c2, i2⟩ := cast_raw_mod (C := IntTy.common L R) ha.2
    refine ⟨_, _, fin h1 h2, ⟨c1, c2⟩, ?_⟩
    rw [Bool.or_eq_true, i1, i2, Args.InRange]; tauto

end Ieme
