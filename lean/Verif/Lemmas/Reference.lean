import Verif.Model.Reference
import Verif.Lemmas.Exact
import Verif.Lemmas.Fraction
import Verif.Props.Convert

/-!
# What compound assignment through references leaves in memory
-/

namespace Ieme

open Res IntTy

variable {T : IntTy} {o : Ops} {op : ArithOp} {σ σ' : Store} {l r : Ref} {a : ℕ}

theorem Store.load_assign (hd : l.num ≠ l.den) (v : Raw) : (σ.assign l v).load l = v := by
  simp [Store.load, Store.assign, Store.set, hd]

theorem Store.assign_other {b : ℕ} (v : Raw) (h1 : b ≠ l.num) (h2 : b ≠ l.den) :
    σ.assign l v b = σ b := by
  simp [Store.assign, Store.set, h1, h2]

theorem Store.compoundF_clean (hd : l.num ≠ l.den) (h : σ.compoundF T o op l r ⇓ σ') :
    o.arith T op (.ff (σ.load l) (σ.load r)) ⇓ σ'.load l ∧
      ∀ b, b ≠ l.num → b ≠ l.den → σ' b = σ b := by
  obtain ⟨v, hv, h⟩ := bind_eq_clean.1 h
  simp only [pure_eq_ok, and_true] at h
  subst h
  rw [(C40_compound_is_binary (L := T) (R := T) op _ _ 0).1, Fraction.arith_self] at hv
  rw [Store.load_assign hd]
  exact ⟨hv, fun b => Store.assign_other v⟩

theorem Store.compoundR_clean (hd : l.num ≠ l.den) (h : σ.compoundR T o op l a ⇓ σ') :
    o.arith T op (.fr (σ.load l) (σ a)) ⇓ σ'.load l ∧
      ∀ b, b ≠ l.num → b ≠ l.den → σ' b = σ b := by
  obtain ⟨v, hv, h⟩ := bind_eq_clean.1 h
  simp only [pure_eq_ok, and_true] at h
  subst h
  rw [(C40_compound_is_binary (L := T) (R := T) op _ (σ.load l) _).2.1, Fraction.arith_self] at hv
  rw [Store.load_assign hd]
  exact ⟨hv, fun b => Store.assign_other v⟩

end Ieme
