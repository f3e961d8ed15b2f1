import Verif.Model.Rust
/-!
# What debug output is good for

-/
namespace Scribe.Spec

/-- Whatever follows the output, it tells the value, and where it ends. -/
def Readable {α : Type} (f : α → Text) : Prop := ∀ x y u v, f x ++ u = f y ++ v → x = y ∧ u = v

end Scribe.Spec
