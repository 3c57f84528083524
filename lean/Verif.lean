import Verif.Basic.Decimal
import Verif.Basic.F64
import Verif.Basic.Fl
import Verif.Basic.Flt
import Verif.Basic.Nm
import Verif.Basic.Num
import Verif.Basic.Res
import Verif.Basic.Round
import Verif.Basic.Sqrt
import Verif.Basic.Str
import Verif.Lemmas.Calm
import Verif.Lemmas.Convert
import Verif.Lemmas.ConvertGood
import Verif.Lemmas.ConvertPairs
import Verif.Lemmas.ConvertTwice
import Verif.Lemmas.Coords
import Verif.Lemmas.Difference
import Verif.Lemmas.Digits
import Verif.Lemmas.Drift
import Verif.Lemmas.ErrKind
import Verif.Lemmas.Exact
import Verif.Lemmas.Flt
import Verif.Lemmas.Form
import Verif.Lemmas.Formatter
import Verif.Lemmas.FpCheck
import Verif.Lemmas.FpCodec
import Verif.Lemmas.FpGrammar
import Verif.Lemmas.FpMsg
import Verif.Lemmas.FpPrinting
import Verif.Lemmas.Hier
import Verif.Lemmas.Kinds
import Verif.Lemmas.LayBoardGrammar
import Verif.Lemmas.LayCodec
import Verif.Lemmas.LayGrammar
import Verif.Lemmas.LayMsg
import Verif.Lemmas.LayNames
import Verif.Lemmas.LayPrinting
import Verif.Lemmas.LayRead
import Verif.Lemmas.LibBack
import Verif.Lemmas.LibBreak
import Verif.Lemmas.LibCodec
import Verif.Lemmas.LibLocal
import Verif.Lemmas.LibPanic
import Verif.Lemmas.LibRead
import Verif.Lemmas.LibTerm
import Verif.Lemmas.LibTrace
import Verif.Lemmas.LineEnds
import Verif.Lemmas.Lines
import Verif.Lemmas.LinesCut
import Verif.Lemmas.Merge
import Verif.Lemmas.MoveConvert
import Verif.Lemmas.Near
import Verif.Lemmas.Num
import Verif.Lemmas.NumberTexts
import Verif.Lemmas.Numerals
import Verif.Lemmas.PartOrder
import Verif.Lemmas.PlainNumbers
import Verif.Lemmas.Printing
import Verif.Lemmas.ProgOut
import Verif.Lemmas.ReadConvert
import Verif.Lemmas.Rounding
import Verif.Lemmas.SchBack
import Verif.Lemmas.SchBreak
import Verif.Lemmas.SchCodec
import Verif.Lemmas.SchGrammar
import Verif.Lemmas.SchLocal
import Verif.Lemmas.SchMsg
import Verif.Lemmas.SchOut
import Verif.Lemmas.SchPanic
import Verif.Lemmas.SchRead
import Verif.Lemmas.SchReturns
import Verif.Lemmas.SchSheetGrammar
import Verif.Lemmas.SchTerm
import Verif.Lemmas.SchTrace
import Verif.Lemmas.Settle
import Verif.Lemmas.Sexp
import Verif.Lemmas.SexpCut
import Verif.Lemmas.SexpExact
import Verif.Lemmas.Spacing
import Verif.Lemmas.SplitPred
import Verif.Lemmas.TreeGrammar
import Verif.Lemmas.TreeMsg
import Verif.Lemmas.TreeParts
import Verif.Model.Bound
import Verif.Model.BoxMsg
import Verif.Model.Bytes
import Verif.Model.CheckFix
import Verif.Model.Expand
import Verif.Model.Files
import Verif.Model.FilesMsg
import Verif.Model.FilesOut
import Verif.Model.FixMsg
import Verif.Model.Footprint.Build
import Verif.Model.Footprint.Check
import Verif.Model.Footprint.Codec
import Verif.Model.Footprint.Data
import Verif.Model.Formatter
import Verif.Model.FpLibTable
import Verif.Model.Layout.Build
import Verif.Model.Layout.Codec
import Verif.Model.Layout.Data
import Verif.Model.Layout.Notes
import Verif.Model.Paths
import Verif.Model.Programs
import Verif.Model.Project
import Verif.Model.RefOrd
import Verif.Model.Release
import Verif.Model.Schematic
import Verif.Model.SchematicApi
import Verif.Model.SchematicMsg
import Verif.Model.SchematicOut
import Verif.Model.Sexp
import Verif.Model.Split
import Verif.Model.SymbolLib
import Verif.Model.SymbolLibMsg
import Verif.Model.TreeMsg
import Verif.Props.C01
import Verif.Props.C02
import Verif.Props.C03
import Verif.Props.C04
import Verif.Props.C05
import Verif.Props.C06
import Verif.Props.C07
import Verif.Props.C08
import Verif.Props.C09
import Verif.Props.C10
import Verif.Props.C100
import Verif.Props.C101
import Verif.Props.C102
import Verif.Props.C103
import Verif.Props.C104
import Verif.Props.C105
import Verif.Props.C106
import Verif.Props.C107
import Verif.Props.C108
import Verif.Props.C109
import Verif.Props.C11
import Verif.Props.C110
import Verif.Props.C111
import Verif.Props.C112
import Verif.Props.C113
import Verif.Props.C114
import Verif.Props.C115
import Verif.Props.C116
import Verif.Props.C117
import Verif.Props.C118
import Verif.Props.C119
import Verif.Props.C12
import Verif.Props.C120
import Verif.Props.C121
import Verif.Props.C122
import Verif.Props.C123
import Verif.Props.C124
import Verif.Props.C125
import Verif.Props.C126
import Verif.Props.C127
import Verif.Props.C128
import Verif.Props.C129
import Verif.Props.C13
import Verif.Props.C130
import Verif.Props.C131
import Verif.Props.C132
import Verif.Props.C133
import Verif.Props.C134
import Verif.Props.C135
import Verif.Props.C136
import Verif.Props.C137
import Verif.Props.C138
import Verif.Props.C139
import Verif.Props.C14
import Verif.Props.C140
import Verif.Props.C141
import Verif.Props.C142
import Verif.Props.C143
import Verif.Props.C144
import Verif.Props.C145
import Verif.Props.C146
import Verif.Props.C147
import Verif.Props.C148
import Verif.Props.C15
import Verif.Props.C16
import Verif.Props.C17
import Verif.Props.C18
import Verif.Props.C19
import Verif.Props.C20
import Verif.Props.C21
import Verif.Props.C22
import Verif.Props.C23
import Verif.Props.C24
import Verif.Props.C25
import Verif.Props.C26
import Verif.Props.C27
import Verif.Props.C28
import Verif.Props.C29
import Verif.Props.C30
import Verif.Props.C31
import Verif.Props.C32
import Verif.Props.C33
import Verif.Props.C34
import Verif.Props.C35
import Verif.Props.C36
import Verif.Props.C37
import Verif.Props.C38
import Verif.Props.C39
import Verif.Props.C40
import Verif.Props.C41
import Verif.Props.C42
import Verif.Props.C43
import Verif.Props.C44
import Verif.Props.C45
import Verif.Props.C46
import Verif.Props.C47
import Verif.Props.C48
import Verif.Props.C49
import Verif.Props.C50
import Verif.Props.C51
import Verif.Props.C52
import Verif.Props.C53
import Verif.Props.C54
import Verif.Props.C55
import Verif.Props.C56
import Verif.Props.C57
import Verif.Props.C58
import Verif.Props.C59
import Verif.Props.C60
import Verif.Props.C61
import Verif.Props.C62
import Verif.Props.C63
import Verif.Props.C64
import Verif.Props.C65
import Verif.Props.C66
import Verif.Props.C67
import Verif.Props.C68
import Verif.Props.C69
import Verif.Props.C70
import Verif.Props.C71
import Verif.Props.C72
import Verif.Props.C73
import Verif.Props.C74
import Verif.Props.C75
import Verif.Props.C76
import Verif.Props.C77
import Verif.Props.C78
import Verif.Props.C79
import Verif.Props.C80
import Verif.Props.C81
import Verif.Props.C82
import Verif.Props.C83
import Verif.Props.C84
import Verif.Props.C85
import Verif.Props.C86
import Verif.Props.C87
import Verif.Props.C88
import Verif.Props.C89
import Verif.Props.C90
import Verif.Props.C91
import Verif.Props.C92
import Verif.Props.C93
import Verif.Props.C94
import Verif.Props.C95
import Verif.Props.C96
import Verif.Props.C97
import Verif.Props.C98
import Verif.Props.C99
import Verif.Spec.Blame
import Verif.Spec.BoardText
import Verif.Spec.Box
import Verif.Spec.Build
import Verif.Spec.Convert
import Verif.Spec.Coord
import Verif.Spec.Cut
import Verif.Spec.Difference
import Verif.Spec.Edits
import Verif.Spec.ExactNumbers
import Verif.Spec.Files
import Verif.Spec.Footprint
import Verif.Spec.FootprintCheck
import Verif.Spec.FootprintFile
import Verif.Spec.FootprintGrammar
import Verif.Spec.FootprintText
import Verif.Spec.Form
import Verif.Spec.Hierarchy
import Verif.Spec.Layout
import Verif.Spec.LayoutFile
import Verif.Spec.LayoutGrammar
import Verif.Spec.LibBlame
import Verif.Spec.LineEnds
import Verif.Spec.LineOrder
import Verif.Spec.Lines
import Verif.Spec.Merge
import Verif.Spec.Mirror
import Verif.Spec.Nanometres
import Verif.Spec.Nets
import Verif.Spec.NotANumber
import Verif.Spec.NumberTexts
import Verif.Spec.Numerals
import Verif.Spec.Order
import Verif.Spec.PartOrder
import Verif.Spec.PlainNumbers
import Verif.Spec.Printing
import Verif.Spec.Schematic
import Verif.Spec.SchematicDefects
import Verif.Spec.SchematicEdits
import Verif.Spec.SchematicFile
import Verif.Spec.SchematicGrammar
import Verif.Spec.SchematicPanics
import Verif.Spec.Session
import Verif.Spec.Settle
import Verif.Spec.Sexp
import Verif.Spec.SkippedLines
import Verif.Spec.Spacing
import Verif.Spec.SymbolDefects
import Verif.Spec.SymbolEdits
import Verif.Spec.SymbolFile
import Verif.Spec.SymbolGrammar
import Verif.Spec.SymbolPanics
import Verif.Spec.SymbolResave
import Verif.Spec.TableGrammar
import Verif.Spec.TreeBlame
import Verif.Spec.TreeGrammar
import Verif.Spec.Uri
