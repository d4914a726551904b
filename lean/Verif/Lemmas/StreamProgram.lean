import Verif.Spec.StreamProgram

/-!
# Evaluating the stream operators
-/

namespace Ieme.StreamText

open Stream

variable {σ : Type} {D : Device σ} {n : Nat}

theorem insert_raw (f : Raw) (s : σ) : invoke D program (n + 1) .out (.raw f) s =
    some ((insertion D f s).noexcept.map (Obj.raw f, ·)) := by
  change enter D (invoke D program n) _ (.raw f) s = _
  cases h1 : D.put s f.num with
  | returned a =>
    cases h2 : D.putChar a '/' with
    | returned b =>
      cases h3 : D.put b f.den <;>
        simp [enter, run, chain, steps, step, single, andThen, Obj.field, Obj.setField, insertion,
          h1, h2, h3, Call.andThen, Call.noexcept, Call.map]
    | _ =>
      simp [enter, run, chain, steps, step, single, andThen, Obj.field, Obj.setField, insertion,
        h1, h2, Call.andThen, Call.noexcept, Call.map]
  | _ =>
    simp [enter, run, chain, steps, step, single, andThen, Obj.field, Obj.setField, insertion, h1,
      Call.andThen, Call.noexcept, Call.map]

theorem insert_frac (f : Raw) (s : σ) : invoke D program (n + 2) .out (.frac f) s =
    some ((insertion D f s).noexcept.map (Obj.frac f, ·)) := by
  change enter D (invoke D program (n + 1)) _ (.frac f) s = _
  cases h : insertion D f s <;>
    simp [enter, run, chain, steps, step, single, andThen, Obj.field, Obj.setField, insert_raw, h,
      Call.andThen, Call.noexcept, Call.map]

theorem extract_raw (f : Raw) (s : σ) : invoke D program (n + 1) .inp (.raw f) s =
    some ((extraction D f s).noexcept.map fun r => (Obj.raw r.1, r.2)) := by
  change enter D (invoke D program n) _ (.raw f) s = _
  cases h1 : D.get s f.num with
  | returned a =>
    cases h2 : D.ignore a.2 '/' with
    | returned b =>
      cases h3 : D.get b f.den <;>
        simp [enter, run, chain, steps, step, single, andThen, Obj.field, Obj.setField, extraction,
          h1, h2, h3, Call.andThen, Call.noexcept, Call.map, greatest]
    | _ =>
      simp [enter, run, chain, steps, step, single, andThen, Obj.field, Obj.setField, extraction,
        h1, h2, Call.andThen, Call.noexcept, Call.map, greatest]
  | _ =>
    simp [enter, run, chain, steps, step, single, andThen, Obj.field, Obj.setField, extraction, h1,
      Call.andThen, Call.noexcept, Call.map]

theorem extract_frac (f : Raw) (s : σ) : invoke D program (n + 2) .inp (.frac f) s =
    some ((extraction D f s).noexcept.map fun r => (Obj.frac r.1, r.2)) := by
  change enter D (invoke D program (n + 1)) _ (.frac f) s = _
  cases h : extraction D f s <;>
    simp [enter, run, chain, steps, step, single, andThen, Obj.field, Obj.setField, extract_raw, h,
      Call.andThen, Call.noexcept, Call.map]

theorem Gives.unique {d : Dir} {v : Obj} {s : σ} {r r' : Call (Obj × σ)} (h : Gives D d v s r)
    (h' : Gives D d v s r') : r = r' := by
  obtain ⟨a, ha⟩ := h
  obtain ⟨b, hb⟩ := h'
  exact Option.some.inj ((ha (max a b) (Nat.le_max_left ..)).symm.trans
    (hb (max a b) (Nat.le_max_right ..)))

end Ieme.StreamText
