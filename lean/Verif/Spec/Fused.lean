import Verif.Model.GapBuffer
/-! # Two allocators -/
namespace Scribe

/-- An allocator that gives what is asked for and `n` bytes more. -/
def Alloc.spare (n : Nat) : Alloc := ⟨fun _ _ m => List.replicate (m + n) 0, by simp⟩

end Scribe
