import Verif.Spec.Doc
import Verif.Model.Uax29
/-!
# Ordinary text

Sets of clusters that never merge with each other. Over such a set the conditions of `CleanCmd` about merging
clusters are automatic.
-/
namespace Scribe.Spec
open Buf (Cmd)
variable (segs : Text → List Text) (P : Text → Prop)

/-- Every cluster of the text is in `P`. -/
def Over (t : Text) : Prop := ∀ c ∈ segs t, P c

/-- Clusters of `P` put side by side stay as they are; CRLF is not among them. -/
structure Closed : Prop where
  apart : ∀ cs : List Text, (∀ c ∈ cs, P c) → segs cs.flatten = cs
  noCrlf : ¬ P ['\r', '\n']

/-- Calls on ordinary text. Strings passed in are over `P`; a range to delete has an existing end (or no existing start); no
redo while a group with edits is open. -/
def OrdinaryCmd (d : Doc) : Cmd → Prop
  | .insert s => Over segs P s
  | .replace c => Over segs P c
  | .reload c => Over segs P c
  | .deleteRange p q => exists? segs d.text (hi p q) = true ∨ exists? segs d.text (lo p q) = false
  | .redo => d.redo = [] ∨ d.group = none ∨ d.group = some []
  | _ => True

/-- Every call of a sequence is ordinary. -/
def OrdinaryCmds (d : Doc) : List Cmd → Prop
  | [] => True
  | c :: cs => OrdinaryCmd segs P d c ∧ OrdinaryCmds (d.step segs c) cs

/-- Calls that are ordinary whatever the state of the buffer: insertion, deletion at the cursor, replacement, undo, redo,
movements, unchecked cursor assignment, save, reload; no groups, no `delete_range`. -/
def TypingCmd : Cmd → Prop
  | .insert s => Over segs P s
  | .replace c => Over segs P c
  | .reload c => Over segs P c
  | .deleteRange _ _ => False
  | .startGroup => False
  | _ => True

end Scribe.Spec

namespace Scribe.Uax29

/-- Classes that start a cluster of ordinary text: everything except marks that attach to what precedes (Extend, ZWJ,
SpacingMark, Hangul vowels and trailing consonants) and CR. -/
def Cls.first : Cls → Bool
  | .cr | .extend | .extendNone | .linker | .zwj | .spacing | .v | .t => false
  | _ => true

/-- States in which a cluster of ordinary text may end: nothing that starts a cluster attaches to it. Excluded: CR,
a lone Prepend, a lone Hangul leading consonant, a lone regional indicator, a trailing ZWJ after a pictograph, a
trailing linker after a consonant. -/
def St.closed : St → Bool
  | .ctl | .hV | .hT | .ri2 | .pict | .cons | .any => true
  | _ => false

/-- The state at the end of a cluster that continues with these characters; `none` if it does not. -/
def runSt (cls : Char → Cls) : St → Text → Option St
  | st, [] => some st
  | st, c :: cs =>
    match cont st (cls c) with
    | some st' => runSt cls st' cs
    | none => none

/-- An ordinary cluster: a newline or control, a letter with its marks, a Hangul syllable, a pair of regional indicators, an
emoji sequence, an Indic conjunct, and so on. -/
def Ordinary (cls : Char → Cls) : Text → Prop
  | [] => False
  | c :: cs => (cls c).first = true ∧ ∃ st, runSt cls (start (cls c)) cs = some st ∧ st.closed = true

instance (cls : Char → Cls) : (c : Text) → Decidable (Ordinary cls c)
  | [] => isFalse id
  | c :: cs =>
    match h : runSt cls (start (cls c)) cs with
    | none => isFalse (by rintro ⟨_, st, h1, _⟩; rw [h] at h1; cases h1)
    | some st =>
      if h2 : (cls c).first = true ∧ st.closed = true then isTrue ⟨h2.1, st, h, h2.2⟩
      else isFalse (by rintro ⟨a, st', h1, b⟩; rw [h] at h1; cases h1; exact h2 ⟨a, b⟩)

end Scribe.Uax29
