import Verif.Demo
import Verif.Model.Buffer
import Verif.Model.BufferReading
import Verif.Model.Caller
import Verif.Model.Convert
import Verif.Model.Cost
import Verif.Model.Cursor
import Verif.Model.Debug
import Verif.Model.Dialogue
import Verif.Model.Editor
import Verif.Model.Errors
import Verif.Model.Fields
import Verif.Model.File
import Verif.Model.GapBuffer
import Verif.Model.Guarded
import Verif.Model.Heap
import Verif.Model.LineIterator
import Verif.Model.Machine
import Verif.Model.MachineRest
import Verif.Model.Office
import Verif.Model.Overlap
import Verif.Model.PathStr
import Verif.Model.Position
import Verif.Model.Reading
import Verif.Model.Rust
import Verif.Model.Search
import Verif.Model.Segmenter
import Verif.Model.Session
import Verif.Model.Shared
import Verif.Model.Str
import Verif.Model.Token
import Verif.Model.TokenUnwind
import Verif.Model.Uax29
import Verif.Model.Uninit
import Verif.Model.Unwind
import Verif.Model.Workspace
import Verif.Oracle.Again
import Verif.Oracle.Basic
import Verif.Oracle.Batch
import Verif.Oracle.Block
import Verif.Oracle.Buffer
import Verif.Oracle.BufferReading
import Verif.Oracle.Cache
import Verif.Oracle.Caller
import Verif.Oracle.Concurrent
import Verif.Oracle.Convert
import Verif.Oracle.Cost
import Verif.Oracle.Debug
import Verif.Oracle.Desktop
import Verif.Oracle.Dialogue
import Verif.Oracle.Direct
import Verif.Oracle.Editor
import Verif.Oracle.Errors
import Verif.Oracle.Exact
import Verif.Oracle.FindReplace
import Verif.Oracle.Gap
import Verif.Oracle.Grapheme
import Verif.Oracle.Guarded
import Verif.Oracle.Heap
import Verif.Oracle.Held
import Verif.Oracle.Hits
import Verif.Oracle.Marks
import Verif.Oracle.Meddle
import Verif.Oracle.Office
import Verif.Oracle.Overlap
import Verif.Oracle.Parser
import Verif.Oracle.PathStr
import Verif.Oracle.Program
import Verif.Oracle.Reading
import Verif.Oracle.Rest
import Verif.Oracle.Resume
import Verif.Oracle.Samples
import Verif.Oracle.Sheet
import Verif.Oracle.SoundAgain
import Verif.Oracle.SoundBasic
import Verif.Oracle.SoundBatch
import Verif.Oracle.SoundBlock
import Verif.Oracle.SoundBuffer
import Verif.Oracle.SoundBufferReading
import Verif.Oracle.SoundCache
import Verif.Oracle.SoundCaller
import Verif.Oracle.SoundConcurrent
import Verif.Oracle.SoundConvert
import Verif.Oracle.SoundCost
import Verif.Oracle.SoundDebug
import Verif.Oracle.SoundDesktop
import Verif.Oracle.SoundDialogue
import Verif.Oracle.SoundDirect
import Verif.Oracle.SoundEditor
import Verif.Oracle.SoundErrors
import Verif.Oracle.SoundExact
import Verif.Oracle.SoundFile
import Verif.Oracle.SoundFindReplace
import Verif.Oracle.SoundGap
import Verif.Oracle.SoundGrapheme
import Verif.Oracle.SoundGuarded
import Verif.Oracle.SoundHeap
import Verif.Oracle.SoundHeld
import Verif.Oracle.SoundHits
import Verif.Oracle.SoundMarks
import Verif.Oracle.SoundMeddle
import Verif.Oracle.SoundOffice
import Verif.Oracle.SoundOverlap
import Verif.Oracle.SoundParser
import Verif.Oracle.SoundPathStr
import Verif.Oracle.SoundProgram
import Verif.Oracle.SoundReading
import Verif.Oracle.SoundResume
import Verif.Oracle.SoundShared
import Verif.Oracle.SoundSheet
import Verif.Oracle.SoundSplice
import Verif.Oracle.SoundStray
import Verif.Oracle.SoundStream
import Verif.Oracle.SoundTokenUnwind
import Verif.Oracle.SoundTyping
import Verif.Oracle.SoundUnwind
import Verif.Oracle.SoundWalk
import Verif.Oracle.SoundWindows
import Verif.Oracle.SoundWorkspace
import Verif.Oracle.Splice
import Verif.Oracle.Stray
import Verif.Oracle.Stream
import Verif.Oracle.TokenUnwind
import Verif.Oracle.Typing
import Verif.Oracle.Unwind
import Verif.Oracle.Walk
import Verif.Oracle.Windows
import Verif.Proofs.Again
import Verif.Proofs.Aligned
import Verif.Proofs.Batch
import Verif.Proofs.Block
import Verif.Proofs.BufferReading
import Verif.Proofs.BufferReadingBounds
import Verif.Proofs.Cache
import Verif.Proofs.Closed
import Verif.Proofs.Concurrent
import Verif.Proofs.Cost
import Verif.Proofs.Cursor
import Verif.Proofs.Debug
import Verif.Proofs.Desktop
import Verif.Proofs.Dialogue
import Verif.Proofs.Direct
import Verif.Proofs.EndPos
import Verif.Proofs.Fields
import Verif.Proofs.FindReplace
import Verif.Proofs.GapBuffer
import Verif.Proofs.GapRun
import Verif.Proofs.Grapheme
import Verif.Proofs.Guarded
import Verif.Proofs.GuardedCells
import Verif.Proofs.Heap
import Verif.Proofs.HeapSteps
import Verif.Proofs.LineIterator
import Verif.Proofs.Lines
import Verif.Proofs.Machine
import Verif.Proofs.MachineRest
import Verif.Proofs.Marks
import Verif.Proofs.Names
import Verif.Proofs.Office
import Verif.Proofs.Overlap
import Verif.Proofs.Parser
import Verif.Proofs.PathStr
import Verif.Proofs.Position
import Verif.Proofs.Reading
import Verif.Proofs.Recipe
import Verif.Proofs.Resume
import Verif.Proofs.Safe
import Verif.Proofs.Session
import Verif.Proofs.Shared
import Verif.Proofs.Sheet
import Verif.Proofs.Sim
import Verif.Proofs.Snap
import Verif.Proofs.Splice
import Verif.Proofs.Str
import Verif.Proofs.Stray
import Verif.Proofs.Stream
import Verif.Proofs.Text
import Verif.Proofs.Token
import Verif.Proofs.TokenStream
import Verif.Proofs.TokenUnwind
import Verif.Proofs.Twin
import Verif.Proofs.Typing
import Verif.Proofs.Uax29
import Verif.Proofs.Undo
import Verif.Proofs.Uninit
import Verif.Proofs.Unwind
import Verif.Proofs.Utf8
import Verif.Proofs.Walk
import Verif.Proofs.Weave
import Verif.Proofs.Windows
import Verif.Proofs.Workspace
import Verif.Proofs.Zipper
import Verif.Props.Again
import Verif.Props.Batch
import Verif.Props.Block
import Verif.Props.Buffer
import Verif.Props.BufferReading
import Verif.Props.Cache
import Verif.Props.Caller
import Verif.Props.Concurrent
import Verif.Props.Convert
import Verif.Props.Cost
import Verif.Props.Counts
import Verif.Props.Cursor
import Verif.Props.Debug
import Verif.Props.Desktop
import Verif.Props.Dialogue
import Verif.Props.Direct
import Verif.Props.Editor
import Verif.Props.Elsewhere
import Verif.Props.Errors
import Verif.Props.Fields
import Verif.Props.File
import Verif.Props.FindReplace
import Verif.Props.Findings
import Verif.Props.Fused
import Verif.Props.GapBuffer
import Verif.Props.Grapheme
import Verif.Props.Guarded
import Verif.Props.HardLinks
import Verif.Props.Heap
import Verif.Props.Held
import Verif.Props.Highlight
import Verif.Props.History
import Verif.Props.Hits
import Verif.Props.LineRange
import Verif.Props.Machine
import Verif.Props.MachineRest
import Verif.Props.Marks
import Verif.Props.Meddle
import Verif.Props.Names
import Verif.Props.Office
import Verif.Props.Ordinary
import Verif.Props.Overlap
import Verif.Props.Parser
import Verif.Props.PathStr
import Verif.Props.Position
import Verif.Props.Reading
import Verif.Props.Recipe
import Verif.Props.Resume
import Verif.Props.Search
import Verif.Props.Session
import Verif.Props.Shared
import Verif.Props.Sheet
import Verif.Props.Splice
import Verif.Props.Stranded
import Verif.Props.Stray
import Verif.Props.Stream
import Verif.Props.Token
import Verif.Props.TokenStream
import Verif.Props.TokenUnwind
import Verif.Props.Typing
import Verif.Props.Uninit
import Verif.Props.Unwind
import Verif.Props.Walk
import Verif.Props.Windows
import Verif.Props.Workspace
import Verif.Props.Zipper
import Verif.RepoTests.Buffer
import Verif.RepoTests.Common
import Verif.RepoTests.Cursor
import Verif.RepoTests.Gap
import Verif.RepoTests.Token
import Verif.RepoTests.Workspace
import Verif.Spec.Again
import Verif.Spec.Batch
import Verif.Spec.Block
import Verif.Spec.BufferReading
import Verif.Spec.Cache
import Verif.Spec.Caller
import Verif.Spec.Calls
import Verif.Spec.Concurrent
import Verif.Spec.Convert
import Verif.Spec.Cost
import Verif.Spec.Counts
import Verif.Spec.Cursor
import Verif.Spec.Debug
import Verif.Spec.Desktop
import Verif.Spec.Dialogue
import Verif.Spec.Direct
import Verif.Spec.Doc
import Verif.Spec.Editor
import Verif.Spec.Errors
import Verif.Spec.Fields
import Verif.Spec.File
import Verif.Spec.FindReplace
import Verif.Spec.Fused
import Verif.Spec.Grapheme
import Verif.Spec.Guarded
import Verif.Spec.Heap
import Verif.Spec.Held
import Verif.Spec.LineRange
import Verif.Spec.Machine
import Verif.Spec.MachineRest
import Verif.Spec.Marks
import Verif.Spec.Meddle
import Verif.Spec.Office
import Verif.Spec.Ordinary
import Verif.Spec.Overlap
import Verif.Spec.Parser
import Verif.Spec.PathStr
import Verif.Spec.Position
import Verif.Spec.Reading
import Verif.Spec.Recipe
import Verif.Spec.Resume
import Verif.Spec.Session
import Verif.Spec.Shared
import Verif.Spec.Sheet
import Verif.Spec.Snap
import Verif.Spec.Splice
import Verif.Spec.States
import Verif.Spec.Stray
import Verif.Spec.Stream
import Verif.Spec.Text
import Verif.Spec.Token
import Verif.Spec.TokenUnwind
import Verif.Spec.Typing
import Verif.Spec.Unwind
import Verif.Spec.Walk
import Verif.Spec.Windows
import Verif.Spec.Workspace
import Verif.Spec.Zipper
