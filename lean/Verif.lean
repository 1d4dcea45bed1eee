import Verif.Model.Lexer
import Verif.Model.Ast
import Verif.Model.Types
import Verif.Spec.Grammar
import Verif.Model.Parser
import Verif.Model.Visitor
import Verif.Model.Emitter
import Verif.Model.Contract
import Verif.Props.Lexer1
import Verif.Props.Lexer2
import Verif.Props.Parser1
import Verif.Spec.Interface
import Verif.Props.Emitter1
import Verif.Spec.Scan
import Verif.Props.Parser2
import Verif.Props.Layout
import Verif.Props.Spans
import Verif.Props.Types
import Verif.Spec.Print
import Verif.Props.RoundTrip
import Verif.Props.Display
import Verif.Props.DisplayInj
import Verif.Props.Visitor
import Verif.Props.Comments
import Verif.Props.Errors
import Verif.Props.Reprint
import Verif.Props.Append
import Verif.Props.NonAscii
import Verif.Props.Rename
import Verif.Props.Legal
import Verif.Model.Debug
import Verif.Proofs.EmitText
import Verif.Proofs.DebugInj
import Verif.Props.ErrorText
import Verif.Props.DebugText
import Verif.Spec.LineEnds
import Verif.Proofs.LexCrlf
import Verif.Props.LineEnds
import Verif.Props.Tables
import Verif.Spec.Relocate
import Verif.Proofs.LexLocal
import Verif.Props.Local
import Verif.Spec.EmitLog
import Verif.Proofs.NodeCount
import Verif.Proofs.EmitCount
import Verif.Props.Cost
import Verif.Spec.GrammarFile
import Verif.Spec.Generates
import Verif.Proofs.GrammarFile
import Verif.Props.GrammarFile
import Verif.Model.LR
import Verif.Model.LRParse
import Verif.Spec.LRTables
import Verif.Spec.Desugar
import Verif.Spec.LRCheck
import Verif.Spec.LRData
import Verif.Proofs.LRComplete
import Verif.Proofs.LRSound
import Verif.Proofs.LRDrive
import Verif.Proofs.Desugar
import Verif.Proofs.LRCheck
import Verif.Proofs.LRTables
import Verif.Proofs.LRSpeaks
import Verif.Props.LR
import Verif.Spec.RustValue
import Verif.Spec.Actions
import Verif.Spec.NodeValues
import Verif.Spec.Builds
import Verif.Proofs.Actions
import Verif.Proofs.Builds
import Verif.Proofs.NodeValues
import Verif.Props.Actions
import Verif.Props.LRValues
import Verif.Spec.Pile
import Verif.Proofs.Pile
import Verif.Props.Pile
import Verif.Spec.Depth
import Verif.Proofs.Depth
import Verif.Props.Depth
import Verif.Spec.NodeTypes
import Verif.Proofs.NodeTypes
import Verif.Model.TreeText
import Verif.Proofs.TreeText
import Verif.Proofs.TreeOrder
import Verif.Props.Trees
import Verif.Spec.Regex
import Verif.Proofs.Regex
import Verif.Props.Regex
import Verif.Spec.Utf8
import Verif.Proofs.Utf8
import Verif.Props.Bytes
import Verif.Spec.Unparse
import Verif.Proofs.Unparse
import Verif.Proofs.UnparseDerives
import Verif.Spec.Essential
import Verif.Proofs.EssentialDerives
import Verif.Props.Forgets
import Verif.Model.EmitterUse
import Verif.Proofs.Reuse
import Verif.Props.Reuse
import Verif.Model.Machine
import Verif.Proofs.Machine
import Verif.Props.Machine
import Verif.Props.Spelling
import Verif.Props.Expected
import Verif.Model.Helpers
import Verif.Props.Helpers
import Verif.Spec.Occurs
import Verif.Proofs.Frames
import Verif.Proofs.Uses
import Verif.Props.Frames
import Verif.Spec.Meaning
import Verif.Proofs.Meaning
import Verif.Proofs.MeaningDerives
import Verif.Proofs.MeaningProgram
import Verif.Proofs.MeaningOrdinary
import Verif.Props.Meaning
import Verif.Proofs.EditTame
import Verif.Proofs.EditSays
import Verif.Props.EditInterface
import Verif.Model.Pretty
import Verif.Spec.OneLine
import Verif.Proofs.Pretty
import Verif.Props.Pretty
import Verif.Spec.Sources
import Verif.Proofs.Sources
import Verif.Props.Sources
import Verif.Spec.Parts
import Verif.Proofs.Parts
import Verif.Props.Parts
import Verif.Proofs.Written
import Verif.Props.Written
import Verif.Spec.LRTypeData
import Verif.Proofs.LRAny
import Verif.Proofs.LRTypeTables
import Verif.Props.AnyParser
import Verif.Spec.Cut
import Verif.Proofs.LexCut
import Verif.Proofs.Cut
import Verif.Props.Cut
import Verif.Spec.Blocks
import Verif.Proofs.Blocks
import Verif.Props.Blocks
import Verif.Props.Glue
import Verif.Spec.Size
import Verif.Proofs.Size
import Verif.Props.Size
import Verif.Spec.Neighbours
import Verif.Proofs.Neighbours
import Verif.Props.Neighbours
import Verif.Spec.Keywords
import Verif.Proofs.KeywordData
import Verif.Proofs.Keywords
import Verif.Props.Keywords
import Verif.Props.Forgotten
import Verif.Props.Exchange
import Verif.Props.Omission
import Verif.Props.Doubling
import Verif.Props.Fused
import Verif.Props.Mistaken
import Verif.Conformance.Basic
import Verif.Conformance.Parsers1
import Verif.Conformance.Parsers2
import Verif.Conformance.Parsers3
import Verif.Conformance.Parsers4
import Verif.Conformance.Contracts1
import Verif.Conformance.Contracts2
import Verif.Conformance.Contracts3
import Verif.Conformance.Contracts4
