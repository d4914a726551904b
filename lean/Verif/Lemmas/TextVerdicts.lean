import Verif.Spec.HeaderText
import Verif.Lemmas.HeaderMixed

/-! # Lemmas: results of calls evaluated from the text -/

namespace Ieme.Header

open Res

/-- A call has one result. -/
theorem Returns.unique {sc self g ts args} {r s : Res Val} (h : Returns sc self g ts args r)
    (h' : Returns sc self g ts args s) : r = s := by
  obtain ⟨k, hk⟩ := h
  obtain ⟨l, hl⟩ := h'
  rw [← hk (k + l) (Nat.le_add_right k l), ← hl (k + l) (Nat.le_add_left l k)]

theorem Returns.of {sc self g ts args} {r s : Res Val} (h : Returns sc self g ts args r)
    (e : r = s) : Returns sc self g ts args s := e ▸ h

theorem map_clean {α : Type} {mk : α → Val} (inj : ∀ a b, mk a = mk b → a = b) {e : Res α} {a : α}
    {w : Bool} (h : mk <$> e = Res.ok (mk a) w) : e = Res.ok a w := by
  cases e with
  | fault k => cases h
  | ok v w' =>
    have h' : (Res.ok (mk v) w' : Res Val) = Res.ok (mk a) w := by
      rw [← h]; simp [map_eq_pure_bind, Res.bind_def, Res.bind, Res.pure_def]
    injection h' with h1 h2
    rw [inj _ _ h1, h2]

theorem Returns.int {sc self g ts args} {T : IntTy} {e : Res Int} {n : Int} {w : Bool}
    (h : Returns sc self g ts args (Val.int T <$> e))
    (h' : Returns sc self g ts args (.ok (.int T n) w)) : e = .ok n w :=
  map_clean (fun _ _ h => by injection h) (h.unique h')

theorem Returns.frac {sc self g ts args} {T : IntTy} {o : Ops} {e : Res Raw} {r : Raw} {w : Bool}
    (h : Returns sc self g ts args (Val.frac T o <$> e))
    (h' : Returns sc self g ts args (.ok (.frac T o r) w)) : e = .ok r w :=
  map_clean (fun _ _ h => by injection h) (h.unique h')

theorem Returns.bool {sc self g ts args} {e : Res Bool} {b : Bool} {w : Bool}
    (h : Returns sc self g ts args (Val.bool <$> e))
    (h' : Returns sc self g ts args (.ok (.bool b) w)) : e = .ok b w :=
  map_clean (fun _ _ h => by injection h) (h.unique h')

theorem Returns.mixed {sc self g ts args} {W F : IntTy} {o : Ops} {e : Res Mixed} {m : Mixed}
    {w : Bool} (h : Returns sc self g ts args (Val.mixed W F o <$> e))
    (h' : Returns sc self g ts args (.ok (.mixed W F o m) w)) : e = .ok m w :=
  map_clean (fun _ _ h => by injection h) (h.unique h')

/-- One row of a table. -/
theorem Computes.row {args : List Val} {table : List Row} (h : Computes args table) {g : Nat}
    {r : Res Val} (hm : (g, r) ∈ table) : Returns .global none g [] args r := h _ hm

end Ieme.Header
