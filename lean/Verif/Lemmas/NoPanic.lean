import Verif.Lemmas.Records
import Verif.Lemmas.Slices
/-!
# Panic freedom: how slices, guards and calls combine
-/

namespace Tacho

theorem np_guard {α β : Type} {c : Prop} [Decidable c] {m : String} {f : β → Res α} {r : Res α}
    (h : ¬ c → r ≠ .panic) : (if c then ((Res.err m : Res β) >>= f) else r) ≠ .panic := by
  by_cases hc : c
  · simp [hc]
  · simpa [hc] using h hc

theorem np_ite {α : Type} {c : Prop} [Decidable c] {a b : Res α} (h1 : c → a ≠ .panic) (h2 : ¬ c → b ≠ .panic) :
    (if c then a else b) ≠ .panic := by
  by_cases hc : c
  · simpa [hc] using h1 hc
  · simpa [hc] using h2 hc

theorem np_sl {α : Type} {d : Bytes} {lo hi : Nat} {f : Bytes → Res α} (h1 : lo ≤ hi) (h2 : hi ≤ d.length)
    (h : ∀ x, x.length = hi - lo → f x ≠ .panic) : (sl? d lo hi >>= f) ≠ .panic := by
  rw [sl?_ok h1 h2, Res.bind_ok]
  exact h _ (sl_length_of h2)

theorem np_at {α : Type} {d : Bytes} {i : Nat} {f : UInt8 → Res α} (h1 : i < d.length)
    (h : ∀ x, f x ≠ .panic) : (at? d i >>= f) ≠ .panic := by
  rw [at?_ok h1, Res.bind_ok]
  exact h _

theorem np_from {α : Type} {d : Bytes} {lo : Nat} {f : Bytes → Res α} (h1 : lo ≤ d.length)
    (h : ∀ x, x.length = d.length - lo → f x ≠ .panic) : (from? d lo >>= f) ≠ .panic := by
  rw [from?, if_pos h1, Res.bind_ok]
  exact h _ (by simp)

theorem np_call {α β : Type} {r : Res α} {f : α → Res β} (h1 : r ≠ .panic) (h2 : ∀ a, f a ≠ .panic) :
    (r >>= f) ≠ .panic := Res.bind_ne_panic h1 h2

theorem np_pure {α : Type} {a : α} : (pure a : Res α) ≠ .panic := by simp

theorem np_err {α : Type} {m : String} : (.err m : Res α) ≠ .panic := by simp

/-- Walk through a parser: guards, slices in range, calls already known not to panic. -/
macro "no_panic" : tactic => `(tactic|
  ((try dsimp only) <;>
  repeat' (first
    | exact np_pure
    | exact np_err
    | (refine np_guard fun _ => ?_)
    | (refine np_sl (by omega) (by omega) fun _ _ => ?_)
    | (refine np_at (by omega) fun _ => ?_)
    | (refine np_from (by omega) fun _ _ => ?_)
    | (refine np_call ?_ ?_; (focus (simp; done)); intro _)
    | (refine np_ite (fun _ => ?_) (fun _ => ?_)))))

end Tacho
