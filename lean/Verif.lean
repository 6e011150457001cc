import Verif.Props.Utf8
import Verif.Props.Tables
import Verif.Props.Grapheme
import Verif.Props.Line
import Verif.Props.Token
import Verif.Props.Adapter
import Verif.Props.Leaf
import Verif.Props.Separator
import Verif.Props.Spill
import Verif.Props.Misread
import Verif.Props.Clusters
import Verif.Props.Characters
import Verif.Props.LineClasses
import Verif.Props.Shadowed
import Verif.Props.EndMarker
import Verif.Props.Enable
import Verif.Props.Depend
import Verif.Props.PolicyOrder
import Verif.Props.Grown
import Verif.Props.Redeclared
import Verif.Props.RedeclaredCompile
import Verif.Props.RedeclaredHelp
import Verif.Props.Groups
import Verif.Props.History
import Verif.Props.Remember
import Verif.Props.Alternatives
import Verif.Props.Findings
import Verif.Props.Terminate
import Verif.Props.Route
import Verif.Props.Calls
import Verif.Props.Order
import Verif.Props.OrderProgram
import Verif.Props.Distance
import Verif.Props.Root
import Verif.Props.Suggest
import Verif.Props.Errors
import Verif.Props.Safe
import Verif.Props.Decimal
import Verif.Props.Help
import Verif.Props.DynView
import Verif.Props.Any
import Verif.Props.Util
import Verif.Util.Locale
import Verif.Util.ListExpand
import Verif.Util.StringPolicy
import Verif.Util.DynView
import Verif.Util.Any
import Verif.Util.Result
import Verif.Valid.Walk
import Verif.Valid.Rules
import Verif.Valid.Edit
import Verif.Valid.Cyclic
import Verif.Props.Tree
import Verif.Props.Valid
import Verif.Props.Rules
import Verif.Props.Cyclic
import Verif.Spec.Links
import Verif.Spec.Reading
import Verif.Lemmas.Reading
import Verif.Props.Reading
import Verif.Props.Linked
import Verif.Props.Verbatim
import Verif.Valid.Asserts
import Verif.Props.Compile
import Verif.Props.Labels
import Verif.Help.Program
import Verif.Props.AskHelp
import Verif.Util.Number
import Verif.Props.Number
import Verif.Props.GroupName
import Verif.Examples.Programs
import Verif.Props.Examples
import Verif.Lemmas.Whole
import Verif.Props.Whole
import Verif.Props.Unique
import Verif.Lemmas.OrdinaryTest
import Verif.Props.WholeExamples
import Verif.Props.Even
import Verif.Parse.Entry
import Verif.Parse.Languages
import Verif.Tools.Translation
import Verif.Examples.Languages
import Verif.Props.Entry
import Verif.Props.Translation
import Verif.Props.Languages
import Verif.Props.Accepted
import Verif.Spec.Blame
import Verif.Lemmas.Blame
import Verif.Props.Blame
import Verif.Util.CtString
import Verif.Props.CtString
import Verif.Tools.Tables
import Verif.Spec.Tables
import Verif.Lemmas.Tables
import Verif.Props.UcdTables
import Verif.Spec.Uax29
import Verif.Props.Uax29
import Verif.Spec.Uax14
import Verif.Props.Uax14
import Verif.Props.Page
import Verif.Props.ColourPage
import Verif.Props.StaticPage
import Verif.Spec.Conditions
import Verif.Props.Conditions
import Verif.Parse.Custom
import Verif.Spec.Custom
import Verif.Props.Custom
import Verif.Spec.Reference
import Verif.Props.Reference
import Verif.Spec.Default
import Verif.Props.Default
import Verif.Props.Created
import Verif.Props.Handed
import Verif.Spec.Selected
import Verif.Props.Selected
import Verif.Parse.Throwing
import Verif.Props.Throwing
import Verif.Props.CompiledCalls
import Verif.Props.CompiledValues
import Verif.Props.Called
import Verif.Spec.Outcome
import Verif.Spec.Does
import Verif.Lemmas.Outcome
import Verif.Props.Outcome
import Verif.Tests.Base
import Verif.Tests.Root
import Verif.Tests.Help
import Verif.Tests.Labels
import Verif.Tests.Break
import Verif.Tests.Text
import Verif.Tests.Valid
import Verif.Tests.Phases
import Verif.Tests.Mode
import Verif.Parse.Bounds
import Verif.Props.Bounds
import Verif.Valid.HelpTexts
import Verif.Props.Heading
import Verif.Props.Rearranged
import Verif.Props.Typed
import Verif.Props.TypedDefault
import Verif.Props.TypedAlias
import Verif.Props.TypedValue
import Verif.Props.Moved
import Verif.Props.Final
import Verif.Props.NewLabels
import Verif.Props.InOneWord
import Verif.Props.Relaxed
import Verif.Props.Proper
import Verif.Props.Worth
import Verif.Props.Following
import Verif.Props.HandedOver
