import Verif.Proofs.Names
import Verif.Props.File
/-!
# Property C94: file names and extensions
-/
namespace Scribe.Props
open Spec Buf
variable {σ : Type}

/-- C94: names that are any bytes. The name is `None` unless it is UTF-8; the extension is found all the same, with replacement characters if need be. -/
theorem C94_byte_names (b : FileBuf σ) (dir : Path) (name : Bytes) (h : b.path = some (dir ++ [.normal name])) :
    (∀ s, b.fileName = some s ↔ name = enc s) ∧ (46 ∉ name → b.fileExtension = none) ∧
    (∀ pre ext, name = pre ++ 46 :: ext → 46 ∉ ext → b.fileExtension = if pre = [] ∨ ext = [] then none else some (lossy ext)) := by
  have hn : Path.fileName (dir ++ [.normal name]) = some name := by simp [Path.fileName]
  refine ⟨?_, ?_, ?_⟩
  · intro s
    simp [FileBuf.fileName, h, hn, strict_eq_some]
  · intro hs
    simp [FileBuf.fileExtension, h, Path.extension, hn, splitDot_none hs]
  · rintro pre ext rfl he
    simp only [FileBuf.fileExtension, h, Option.bind_some, Path.extension, hn, splitDot_dot he, List.isEmpty_iff]
    by_cases hp : pre = []
    · simp [hp]
    · by_cases hx : ext = []
      · simp [hx, hp]
      · simp [hx, hp]

/-- **C94.** A buffer whose path ends in a name that is text `s`. The name is `s`; the extension is what follows the last dot, if there is a dot that neither begins
nor ends the name. -/
theorem C94_text_names (b : FileBuf σ) (dir : Path) (s : Text) (h : b.path = some (dir ++ [.normal (enc s)])) :
    b.fileName = some s ∧ ('.' ∉ s → b.fileExtension = none) ∧
    (∀ pre ext, s = pre ++ '.' :: ext → '.' ∉ ext → b.fileExtension = if pre = [] ∨ ext = [] then none else some ext) := by
  have dot : ∀ x : Text, (46 : UInt8) ∈ enc x ↔ '.' ∈ x := fun x => mem_enc_ascii (c := '.') (by decide)
  have nil : ∀ x : Text, enc x = [] ↔ x = [] := fun x => ⟨fun e => enc_injective (by simpa using e), fun e => by rw [e]; rfl⟩
  obtain ⟨h1, h2, h3⟩ := C94_byte_names b dir (enc s) h
  refine ⟨(h1 s).mpr rfl, fun hs => h2 (mt (dot s).mp hs), ?_⟩
  rintro pre ext rfl he
  have e : enc (pre ++ '.' :: ext) = enc pre ++ 46 :: enc ext := by rw [enc_append, enc_cons]; rfl
  rw [h3 (enc pre) (enc ext) e (mt (dot ext).mp he)]
  simp only [nil, lossy_enc]

/-- C94: without a path, or if it does not end in a name (`/`, `.`, `..`, nothing), there is neither. -/
theorem C94_no_name (b : FileBuf σ) (h : ∀ dir name, b.path ≠ some (dir ++ [.normal name])) : b.fileName = none ∧ b.fileExtension = none := by
  have hn : ∀ p, b.path = some p → Path.fileName p = none := by
    intro p hp
    unfold Path.fileName
    split
    · rename_i name hl
      obtain ⟨dir, rfl⟩ := List.getLast?_eq_some_iff.mp hl
      exact absurd hp (h dir name)
    · rfl
  cases hp : b.path with
  | none => simp [FileBuf.fileName, FileBuf.fileExtension, hp]
  | some p => simp [FileBuf.fileName, FileBuf.fileExtension, hp, Path.extension, hn p hp]

/-- C94: a new buffer has no path, and so no name and no extension; it has no syntax, and no id until a workspace gives it one. It is empty, and (having
never been saved) modified. -/
theorem C94_new (A : Alloc) (k : Nat) : let b : FileBuf σ := FileBuf.new A k
    b.path = none ∧ b.fileName = none ∧ b.fileExtension = none ∧ b.syn = none ∧ b.id = none ∧ b.buf.data.toStr = .ok [] ∧ b.buf.modified = true := by
  exact ⟨rfl, rfl, rfl, rfl, rfl, (GapBuffer.holds_new (S := Demo.seg) (A := A) k []).toStr, rfl⟩

/-- `é.tar.gz`, `.bashrc`, `a.`, `Makefile`, and a name that is not UTF-8. -/
example : (⟨Buf.new Demo.tight 0, none, some [.root, .normal (enc (Demo.s "é.tar.gz"))], none⟩ : FileBuf Nat).fileExtension = some (Demo.s "gz") ∧
    (⟨Buf.new Demo.tight 0, none, some [.root, .normal (enc (Demo.s "é.tar.gz"))], none⟩ : FileBuf Nat).fileName = some (Demo.s "é.tar.gz") ∧
    (⟨Buf.new Demo.tight 0, none, some [.normal (enc (Demo.s ".bashrc"))], none⟩ : FileBuf Nat).fileExtension = none ∧
    (⟨Buf.new Demo.tight 0, none, some [.normal (enc (Demo.s "a."))], none⟩ : FileBuf Nat).fileExtension = none ∧
    (⟨Buf.new Demo.tight 0, none, some [.normal (enc (Demo.s "Makefile"))], none⟩ : FileBuf Nat).fileExtension = none ∧
    (⟨Buf.new Demo.tight 0, none, some [.normal [0xff, 46, 0x63]], none⟩ : FileBuf Nat).fileName = none ∧
    (⟨Buf.new Demo.tight 0, none, some [.normal [0xff, 46, 0x63]], none⟩ : FileBuf Nat).fileExtension = some (Demo.s "c") := by decide +kernel

end Scribe.Props
