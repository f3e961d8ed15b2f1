import Verif.Model.Errors
import Verif.Spec.Token
import Verif.Spec.File
/-! # Specification of errors -/
namespace Scribe.Spec

/-- The parser or the scope stack can give this error. -/
def FailsWith (H : Highlighter) (e : H.Err) : Prop := (∃ k op, (H.apply k op).2 = some e) ∨ ∃ p l, (H.parse p l).2 = .error e

/-- The program never takes a syntax away by hand. -/
def KeepsSyntaxes {σ : Type} (as : List (Act σ)) : Prop := ∀ a ∈ as, a ≠ .setSyntax none

end Scribe.Spec
