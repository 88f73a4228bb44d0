import Verif.Spec.Requests
import Verif.Model.AppRuntime

/-! What C92 is about: a request that is written and accepted. -/

namespace Zcc.Spec

/-- What a caller gets when the request was accepted. -/
def successOf : Call → Result
  | .request .. => .returned 0 "message send success"
  | .mrequest .. => .returned 0 "message send success"
  | .broadcast .. => .returned 0 "broadcast send success"
  | .permit _ => .none

/-- Between `s₀` and `s₁` the request of call `n` was written; it is request `t` of the `i`th API
object. -/
def WrittenBetween (s₀ s₁ : AppSys) (n i t : Nat) : Prop :=
  (∃ k b, s₁.tasks[n]? = some k ∧ k.ran = some (i, t) ∧ .sent t b ∈ (s₁.api i).log) ∧
  ∀ b, .sent t b ∉ (s₀.api i).log

/-- Nobody cancels call `n`, whose request is request `t` of the `i`th API object. -/
def NotCancelled (es : List AppEvent) (n i t : Nat) : Prop :=
  .cancel n ∉ es ∧ .api i (.cancel t) ∉ es

end Zcc.Spec
