import Verif.Spec.Chrono
import Verif.Lemmas.ParseValue
import Verif.Props.Compare
import Verif.Props.Arith

/-!
# Lemmas on durations
-/

namespace Ieme

open Res IntTy Chrono

variable {T : IntTy} {o : Ops} {p q s : Period} {c : Count} {r : Raw}

theorem Chrono.Period.seconds_pos (p : Period) : 0 < p.seconds := by
  have h1 : (0 : ℚ) < p.num := by exact_mod_cast p.num_pos
  have h2 : (0 : ℚ) < p.den := by exact_mod_cast p.den_pos
  exact div_pos h1 h2

/-- The conversion factor is the quotient of the periods. -/
theorem Chrono.ratioDivide_factor {n d : ℤ} (h : ratioDivide p q = some (n, d)) :
    0 < n ∧ 0 < d ∧ (n : ℚ) / d = p.seconds / q.seconds := by
  simp only [ratioDivide, Option.ite_none_right_eq_some, Option.some.injEq, Prod.mk.injEq] at h
  obtain ⟨-, rfl, rfl⟩ := h
  have hn : 0 < p.num * q.den := mul_pos p.num_pos q.den_pos
  have hd : 0 < p.den * q.num := mul_pos p.den_pos q.num_pos
  obtain ⟨g, hg⟩ : ∃ g : ℤ, g = (Int.gcd (p.num * q.den) (p.den * q.num) : ℤ) := ⟨_, rfl⟩
  rw [← hg]
  have gp : 0 < g := by rw [hg]; exact_mod_cast Int.gcd_pos_of_ne_zero_left _ hn.ne'
  have d1 : g ∣ p.num * q.den := by rw [hg]; exact Int.gcd_dvd_left ..
  have d2 : g ∣ p.den * q.num := by rw [hg]; exact Int.gcd_dvd_right ..
  refine ⟨Int.ediv_pos_of_pos_of_dvd hn gp.le d1, Int.ediv_pos_of_pos_of_dvd hd gp.le d2, ?_⟩
  have gq : (g : ℚ) ≠ 0 := by exact_mod_cast gp.ne'
  rw [Int.cast_div d1 gq, Int.cast_div d2 gq, div_div_div_cancel_right₀ gq, Chrono.Period.seconds,
    Chrono.Period.seconds]
  push_cast
  have h1 : (p.den : ℚ) ≠ 0 := by exact_mod_cast p.den_pos.ne'
  have h2 : (q.den : ℚ) ≠ 0 := by exact_mod_cast q.den_pos.ne'
  have h3 : (q.num : ℚ) ≠ 0 := by exact_mod_cast q.num_pos.ne'
  field_simp

/-- The parts that `ratioDivide` computes are those of the factor in lowest terms. -/
theorem Chrono.ratioDivide_eq : ratioDivide p q =
    if i64.InRange (conversionFactor p q).num ∧ i64.InRange (conversionFactor p q).den then
      some ((conversionFactor p q).num, ((conversionFactor p q).den : ℤ)) else none := by
  have hn : 0 < p.num * q.den := mul_pos p.num_pos q.den_pos
  have hd : 0 < p.den * q.num := mul_pos p.den_pos q.num_pos
  unfold ratioDivide
  simp only
  obtain ⟨g, hg⟩ : ∃ g : ℤ, g = (Int.gcd (p.num * q.den) (p.den * q.num) : ℤ) := ⟨_, rfl⟩
  rw [← hg]
  have gp : 0 < g := by rw [hg]; exact_mod_cast Int.gcd_pos_of_ne_zero_left _ hn.ne'
  have d1 : g ∣ p.num * q.den := by rw [hg]; exact Int.gcd_dvd_left ..
  have d2 : g ∣ p.den * q.num := by rw [hg]; exact Int.gcd_dvd_right ..
  have p2 := Int.ediv_pos_of_pos_of_dvd hd gp.le d2
  have cop : Nat.Coprime (p.num * q.den / g).natAbs (p.den * q.num / g).natAbs := by
    have := Int.gcd_ediv_gcd_ediv_gcd (i := p.num * q.den) (j := p.den * q.num)
      (Int.gcd_pos_of_ne_zero_left _ hn.ne')
    rw [← hg] at this
    exact this
  have e : ((p.num * q.den / g : ℤ) : ℚ) / ((p.den * q.num / g : ℤ) : ℚ) =
      conversionFactor p q := by
    have gq : (g : ℚ) ≠ 0 := by exact_mod_cast gp.ne'
    rw [Int.cast_div d1 gq, Int.cast_div d2 gq, div_div_div_cancel_right₀ gq, conversionFactor,
      Chrono.Period.seconds, Chrono.Period.seconds]
    push_cast
    have h1 : (p.den : ℚ) ≠ 0 := by exact_mod_cast p.den_pos.ne'
    have h2 : (q.den : ℚ) ≠ 0 := by exact_mod_cast q.den_pos.ne'
    have h3 : (q.num : ℚ) ≠ 0 := by exact_mod_cast q.num_pos.ne'
    field_simp
  rw [← e, Rat.num_div_eq_of_coprime p2 cop, Rat.den_div_eq_of_coprime p2 cop]

theorem Chrono.cast_noThrow : (c.cast T).NoThrow := by
  cases c with
  | int n => exact (conv_noThrow _).bind fun _ => NoThrow.pure _
  | frac f => exact NoThrow.pure _

theorem Chrono.factor_noThrow (n : ℤ) : (factor T n).NoThrow :=
  (conv_noThrow _).bind fun _ => NoThrow.pure _

theorem Chrono.cast_denotes {x : ℚ} {f : Raw} (hc : c.Is x) (h : c.cast T ⇓ f) : Denotes f x := by
  cases c with
  | int n =>
    obtain ⟨n', h1, h2⟩ := bind_eq_clean.1 h
    obtain ⟨-, rfl⟩ := conv_clean.1 h1
    obtain rfl := (pure_eq_ok.1 h2).1
    exact ⟨one_ne_zero, by simpa [Fraction.mk, Chrono.Count.Is] using hc⟩
  | frac f' =>
    obtain rfl := (pure_eq_ok.1 h).1
    exact hc

theorem Chrono.factor_denotes {n : ℤ} {f : Raw} (h : factor T n ⇓ f) : Denotes f n := by
  obtain ⟨n', h1, h2⟩ := bind_eq_clean.1 h
  obtain ⟨-, rfl⟩ := conv_clean.1 h1
  obtain rfl := (pure_eq_ok.1 h2).1
  exact ⟨one_ne_zero, by simp [Fraction.mk]⟩

theorem Chrono.mul_denotes {f g : Raw} {x y : ℚ} (hf : Denotes f x) (hg : Denotes g y)
    (h : Fraction.arith T T o .multiplies (.ff f g) ⇓ r) : Denotes r (x * y) := by
  rw [Fraction.arith_self] at h
  exact Ops.arith_exact (a := .ff f g) (op := .multiplies) ⟨hf, hg⟩ h

theorem Chrono.div_denotes {f g : Raw} {x y : ℚ} (hf : Denotes f x) (hg : Denotes g y) (hy : y ≠ 0)
    (h : Fraction.arith T T o .divides (.ff f g) ⇓ r) : Denotes r (x / y) := by
  rw [Fraction.arith_self] at h
  exact (Ops.arith_exact (a := .ff f g) (op := .divides) ⟨hf, hg⟩ h).1 hy

theorem Chrono.convert_eq : convert T o p q c = durationCast T o p q c := by
  unfold convert
  split
  · rename_i h; rw [durationCast, h]
  · exact if_pos (Or.inl (show treatAsFloatingPoint = true from rfl))

/-- The conversion finishes on a signed representation if the count times the
numerator of the factor, and its denominator, are small. -/
theorem Chrono.convert_finishes {n d : ℤ} {K B : ℕ} {f : Raw} (hs : T.signed = true)
    (hr : ratioDivide p q = some (n, d)) (hc : c.cast T ⇓ f) (hf : f.AbsLe K) (h0 : f.den ≠ 0)
    (hK : 1 ≤ K) (hn : K * n.natAbs ≤ B) (hd : d.natAbs ≤ B)
    (hB : (2 * (B * B) : ℤ) ≤ T.max) : ∃ r, convert T o p q c ⇓ r := by
  obtain ⟨n0, d0, -⟩ := Chrono.ratioDivide_factor hr
  have hBpos : 1 ≤ B := by omega
  have hBB : (B : ℤ) ≤ B * B := le_mul_of_one_le_left (by omega) (by omega)
  have hBm : (B : ℤ) ≤ T.max := by omega
  have hKn : 1 * n.natAbs ≤ K * n.natAbs := Nat.mul_le_mul_right _ hK
  have hKK : K * 1 ≤ K * n.natAbs := Nat.mul_le_mul_left _ (by omega)
  have hmin := T.min_le_zero
  have fit : ∀ m : ℤ, 0 < m → m.natAbs ≤ B → factor T m ⇓ ⟨m, 1⟩ := fun m hm hb => by
    have : T.InRange m := by constructor <;> omega
    rw [factor, conv_clean.2 ⟨this, rfl⟩, ok_bind_false]
    rfl
  have smin : T.min = -T.max - 1 := by
    rw [IntTy.min, IntTy.max, if_pos hs, if_pos hs]; omega
  have inr : ∀ {g : Raw}, g.AbsLe B → g.InRange T := fun hg => by
    obtain ⟨a, b⟩ := hg
    constructor <;> constructor <;> omega
  have mulp : ∀ {m : ℤ}, 0 < m → K * m.natAbs ≤ B →
      ∃ r, Fraction.arith T T o .multiplies (.ff f ⟨m, 1⟩) ⇓ r ∧ r.AbsLe B ∧ r.den ≠ 0 :=
    fun {m} hm hb => by
      have hm1 : 1 * m.natAbs ≤ K * m.natAbs := Nat.mul_le_mul_right _ hK
      obtain ⟨r, h, ha⟩ := Ops.mul_progress (o := o) (f := f) (g := ⟨m, 1⟩) (K₁ := K)
        (K₂ := m.natAbs) hs (by omega) (by omega) (by omega) hf
        ⟨le_rfl, by show (1 : ℤ).natAbs ≤ _; omega⟩
      refine ⟨r, by rw [Fraction.arith_self, h], ⟨ha.1.trans hb, ha.2.trans hb⟩, ?_⟩
      exact (Ops.arith_exact (a := .ff f ⟨m, 1⟩) (op := .multiplies)
        ⟨denotes_self h0, denotes_self (f := ⟨m, 1⟩) one_ne_zero⟩ h).1
  have divp : ∀ {g : Raw}, g.AbsLe B → g.den ≠ 0 →
      ∃ r, Fraction.arith T T o .divides (.ff g ⟨d, 1⟩) ⇓ r := fun {g} hg hg0 => by
    obtain ⟨r, h⟩ := C07_small_arith_finishes (T := T) (o := o) (a := .ff g ⟨d, 1⟩) (B := B)
      .divides ⟨denotes_self hg0, denotes_self (f := ⟨d, 1⟩) one_ne_zero⟩
      ⟨inr hg, inr ⟨hd, by show (1 : ℤ).natAbs ≤ _; omega⟩⟩
      ⟨hg, hd, by show (1 : ℤ).natAbs ≤ _; omega⟩ hB (fun h => by cases h) (fun h => by cases h)
    exact ⟨r, by rw [Fraction.arith_self, h]⟩
  rw [Chrono.convert_eq, durationCast, hr]
  simp only [hc, ok_bind_false, fit n n0 (by omega), fit d d0 hd]
  have hfB : f.AbsLe B := ⟨hf.1.trans (by omega), hf.2.trans (by omega)⟩
  split
  · exact ⟨_, rfl⟩
  split
  · obtain ⟨r, h, -⟩ := mulp n0 hn
    exact ⟨r, h⟩
  split
  · exact divp hfB h0
  · obtain ⟨r, h, ha, hr0⟩ := mulp n0 hn
    rw [h, ok_bind_false]
    exact divp ha hr0

end Ieme
