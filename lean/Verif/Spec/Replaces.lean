import Verif.Spec.TypedEval

/-
Specification: when a pass over typed programs may replace a function by another one.
-/

namespace Zok.Typed
open Abi
variable {p : ℕ} {Z : Type} [Fact p.Prime]

/-- `g` can replace `f`: whatever `f` returns is returned by `g`; whatever `g` returns is returned by `f` unless `f` can fail on these arguments; `g` fails only
where `f` fails; and where an assertion of `f` fails, an assertion of `g` fails. -/
structure Replaces (O : Oracle p Z) (f g : TFun (ZMod p)) : Prop where
  results : ∀ args out, ReturnsT O f args out → ReturnsT O g args out
  noNewResults : ∀ args out, ReturnsT O g args out → ReturnsT O f args out ∨ ∃ e, FaultsT O f args e
  noNewFailures : ∀ args e, FaultsT O g args e → ∃ e', FaultsT O f args e'
  assertions : ∀ args, AssertFailsT O f args → AssertFailsT O g args

theorem Replaces.refl (O : Oracle p Z) (f : TFun (ZMod p)) : Replaces O f f :=
  ⟨fun _ _ h => h, fun _ _ h => .inl h, fun _ e h => ⟨e, h⟩, fun _ h => h⟩

theorem Replaces.trans {O : Oracle p Z} {f g h : TFun (ZMod p)} (h1 : Replaces O f g) (h2 : Replaces O g h) : Replaces O f h where
  results := fun args out hr => h2.results args out (h1.results args out hr)
  noNewResults := fun args out hr => by
    rcases h2.noNewResults args out hr with h3 | ⟨e, h3⟩
    · exact h1.noNewResults args out h3
    · exact .inr (h1.noNewFailures args e h3)
  noNewFailures := fun args e hr => by
    obtain ⟨e', h3⟩ := h2.noNewFailures args e hr
    exact h1.noNewFailures args e' h3
  assertions := fun args hr => h2.assertions args (h1.assertions args hr)

end Zok.Typed
