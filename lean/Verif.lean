import Verif.Model.App
import Verif.Spec.Pieces
import Verif.Spec.Grammar
import Verif.Props.Tokens
import Verif.Spec.Reader
import Verif.Spec.Terminal
import Verif.Props.Sgr
import Verif.Props.Buffer
import Verif.Props.Reader
import Verif.Props.Settings
import Verif.Spec.Layout
import Verif.Props.Errors
import Verif.Props.Binary
import Verif.Props.Offsets
import Verif.Props.Columns
import Verif.Spec.Legend
import Verif.Props.Text
import Verif.Spec.Ink
import Verif.Props.Display
import Verif.Spec.Chunks
import Verif.Props.Chunks
import Verif.Spec.Color
import Verif.Props.Color
import Verif.Props.Pad
import Verif.Spec.TimeDelta
import Verif.Props.TimeDelta
import Verif.Spec.Args
import Verif.Props.Args
import Verif.Props.Legend
import Verif.Spec.Render
import Verif.Spec.Presets
import Verif.Props.Render
import Verif.Spec.Style
import Verif.Props.Style
import Verif.Spec.Debug
import Verif.Props.Debug
import Verif.Props.Stdin
import Verif.Props.DebugReport
import Verif.Props.DebugScreen
import Verif.Props.ColorNames
import Verif.Model.Renderers
import Verif.Spec.Renderers
import Verif.Props.Renderers
import Verif.Props.Output
import Verif.Props.OutputScreen
import Verif.Spec.Number
import Verif.Props.Number
import Verif.Props.NumberExact
import Verif.Props.Units
import Verif.Props.UnitsRange
import Verif.Props.ThousandSep
import Verif.Spec.Filter
import Verif.Props.Filter
import Verif.Spec.Tmux
import Verif.Props.Tmux
import Verif.Spec.Html
import Verif.Props.Html
import Verif.Spec.DebugRender
import Verif.Props.DebugRender
import Verif.Model.Ansi
import Verif.Spec.Names
import Verif.Props.Ansi
import Verif.Props.Tpl
import Verif.Props.LegendGen
import Verif.Model.SettingsTable
import Verif.Spec.SettingsTable
import Verif.Lemmas.SettingsTable
import Verif.Props.SettingsTable
import Verif.Props.DebugApp
import Verif.Model.ArgStrings
import Verif.Spec.Spelling
import Verif.Lemmas.Spelling
import Verif.Props.Spelling
import Verif.Model.TextWrap
import Verif.Model.Help
import Verif.Spec.HelpPage
import Verif.Lemmas.Wrap
import Verif.Lemmas.HelpColons
import Verif.Lemmas.HelpLines
import Verif.Lemmas.HelpPage
import Verif.Lemmas.HelpWords
import Verif.Lemmas.HelpInk
import Verif.Props.HelpPage
import Verif.Lemmas.Agree
import Verif.Lemmas.Insert
import Verif.Spec.HelpClaims
import Verif.Props.HelpClaims
import Verif.Model.Terminal
import Verif.Spec.Keys
import Verif.Props.Keys
import Verif.Props.Parts
import Verif.Model.Repr
import Verif.Spec.Repr
import Verif.Lemmas.Repr
import Verif.Props.Repr
import Verif.Spec.UnitsLen
import Verif.Props.UnitsLen
import Verif.Model.ReplTemplate
import Verif.Spec.ReplTemplate
import Verif.Props.ReplTemplate
import Verif.Props.Underline
import Verif.Props.Distinct
import Verif.Spec.Limits
import Verif.Lemmas.Limits
import Verif.Props.Limits
import Verif.Spec.Labels
import Verif.Props.Labels
import Verif.Spec.Colouring
import Verif.Props.Colouring
import Verif.Spec.Details
import Verif.Props.Details
import Verif.Spec.DebugPieces
import Verif.Lemmas.DebugPieces
import Verif.Props.DebugPieces
import Verif.Spec.DebugCounts
import Verif.Lemmas.DebugCounts
import Verif.Lemmas.DebugTextCounts
import Verif.Props.DebugCounts
import Verif.Props.DebugLimits
import Verif.Cases.Session
import Verif.Cases.Program
import Verif.Cases.Debug
import Verif.Cases.Library
import Verif.Spec.TimeFormatters
import Verif.Props.TimeFormatters
import Verif.Spec.HelpLayout
import Verif.Props.HelpLayout
import Verif.Props.SpanEq
import Verif.Spec.DebugQueue
import Verif.Props.DebugQueue
