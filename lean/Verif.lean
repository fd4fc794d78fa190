import Verif.Axioms
import Verif.Model.Algebraic
import Verif.Model.AlgebraicMain
import Verif.Model.Basic
import Verif.Model.BasicApi
import Verif.Model.Compare
import Verif.Model.Denote
import Verif.Model.Input
import Verif.Model.Interrupted
import Verif.Model.Json
import Verif.Model.JsonMain
import Verif.Model.Modifiers
import Verif.Model.Operators
import Verif.Model.Parse
import Verif.Model.Result
import Verif.Model.Stateful
import Verif.Model.StaticArray
import Verif.Model.Syntax
import Verif.Model.Templates
import Verif.Model.TypeLevel
import Verif.Model.ValueType
import Verif.Model.Written
import Verif.Proof.Agree
import Verif.Proof.Algebraic
import Verif.Proof.AlgebraicAccepted
import Verif.Proof.AlgebraicCalls
import Verif.Proof.AlgebraicComplete
import Verif.Proof.AlgebraicGreedy
import Verif.Proof.AlgebraicParts
import Verif.Proof.AlgebraicSound
import Verif.Proof.AlgebraicUse
import Verif.Proof.Alike
import Verif.Proof.Basic
import Verif.Proof.CallRules
import Verif.Proof.Causes
import Verif.Proof.Choice
import Verif.Proof.Closed
import Verif.Proof.Comparisons
import Verif.Proof.Compile
import Verif.Proof.Compound
import Verif.Proof.Cut
import Verif.Proof.Default
import Verif.Proof.Effort
import Verif.Proof.EffortBound
import Verif.Proof.EffortExact
import Verif.Proof.EffortRecursive
import Verif.Proof.EffortReturns
import Verif.Proof.Equations
import Verif.Proof.Fix
import Verif.Proof.Gives
import Verif.Proof.Hoare
import Verif.Proof.Indices
import Verif.Proof.Interrupted
import Verif.Proof.InterruptedMono
import Verif.Proof.Join
import Verif.Proof.Json
import Verif.Proof.JsonCalls
import Verif.Proof.JsonLanguage
import Verif.Proof.JsonParts
import Verif.Proof.JsonTree
import Verif.Proof.Keeps
import Verif.Proof.Language
import Verif.Proof.LanguageParse
import Verif.Proof.Laws
import Verif.Proof.Lexical
import Verif.Proof.Lifetime
import Verif.Proof.Like
import Verif.Proof.Lim
import Verif.Proof.Loops
import Verif.Proof.Means
import Verif.Proof.MeansParse
import Verif.Proof.MeansText
import Verif.Proof.Modify
import Verif.Proof.Nullable
import Verif.Proof.Once
import Verif.Proof.OneAhead
import Verif.Proof.Opaque
import Verif.Proof.Order
import Verif.Proof.Peg
import Verif.Proof.PegCalls
import Verif.Proof.PegSteps
import Verif.Proof.Places
import Verif.Proof.PlacesOrder
import Verif.Proof.Predict
import Verif.Proof.Prefix
import Verif.Proof.Print
import Verif.Proof.PrintLimit
import Verif.Proof.PrintTells
import Verif.Proof.Productive
import Verif.Proof.Quiet
import Verif.Proof.Ranked
import Verif.Proof.Reach
import Verif.Proof.Recorded
import Verif.Proof.Regions
import Verif.Proof.Relaxed
import Verif.Proof.Repeat
import Verif.Proof.Replace
import Verif.Proof.Respelt
import Verif.Proof.Rules
import Verif.Proof.Sequence
import Verif.Proof.Sets
import Verif.Proof.Size
import Verif.Proof.Stack
import Verif.Proof.StackReturns
import Verif.Proof.StatefulAgree
import Verif.Proof.StatefulCalls
import Verif.Proof.StatefulClosed
import Verif.Proof.StatefulCompound
import Verif.Proof.StatefulFix
import Verif.Proof.StatefulLift
import Verif.Proof.StatefulModify
import Verif.Proof.StatefulNullable
import Verif.Proof.StatefulPrefix
import Verif.Proof.StatefulRelated
import Verif.Proof.StatefulRepeat
import Verif.Proof.StatefulTerminate
import Verif.Proof.StatefulTracks
import Verif.Proof.StatefulTyping
import Verif.Proof.Templates
import Verif.Proof.Terminate
import Verif.Proof.Text
import Verif.Proof.Together
import Verif.Proof.Typing
import Verif.Proof.Used
import Verif.Proof.Verdict
import Verif.Proof.Written
import Verif.Proof.WrittenTerminate
import Verif.Props.Algebraic
import Verif.Props.AlgebraicMain
import Verif.Props.Api
import Verif.Props.CallCount
import Verif.Props.Calls
import Verif.Props.CanParse
import Verif.Props.Causes
import Verif.Props.Choice
import Verif.Props.Compare
import Verif.Props.Comparisons
import Verif.Props.Compile
import Verif.Props.Cut
import Verif.Props.Dropped
import Verif.Props.Effort
import Verif.Props.EffortRecursive
import Verif.Props.Exact
import Verif.Props.ExamplesCalls
import Verif.Props.ExamplesLook
import Verif.Props.Exceptions
import Verif.Props.Exhausts
import Verif.Props.Gives
import Verif.Props.Independence
import Verif.Props.Input
import Verif.Props.Interrupted
import Verif.Props.Json
import Verif.Props.JsonMain
import Verif.Props.Keeps
import Verif.Props.Language
import Verif.Props.Laws
import Verif.Props.Lifetime
import Verif.Props.Literals
import Verif.Props.Lookahead
import Verif.Props.Means
import Verif.Props.Modify
import Verif.Props.Once
import Verif.Props.OneAhead
import Verif.Props.Opaque
import Verif.Props.Order
import Verif.Props.Peg
import Verif.Props.Places
import Verif.Props.Predict
import Verif.Props.Print
import Verif.Props.Repetition
import Verif.Props.Replace
import Verif.Props.Respelt
import Verif.Props.Result
import Verif.Props.Safety
import Verif.Props.Sequence
import Verif.Props.Size
import Verif.Props.Stack
import Verif.Props.Stateful
import Verif.Props.Substitution
import Verif.Props.Templates
import Verif.Props.Terminate
import Verif.Props.Together
import Verif.Props.Trim
import Verif.Props.Types
import Verif.Props.Unparse
import Verif.Props.Used
import Verif.Props.ValueType
import Verif.Props.Written
import Verif.Spec.Algebraic
import Verif.Spec.Alike
import Verif.Spec.Calls
import Verif.Spec.CanParse
import Verif.Spec.Causes
import Verif.Spec.Combinators
import Verif.Spec.Comparisons
import Verif.Spec.Compile
import Verif.Spec.Cut
import Verif.Spec.Default
import Verif.Spec.Effort
import Verif.Spec.Example
import Verif.Spec.Exhausts
import Verif.Spec.Gives
import Verif.Spec.Interrupted
import Verif.Spec.Join
import Verif.Spec.Json
import Verif.Spec.Keeps
import Verif.Spec.Language
import Verif.Spec.Lifetime
import Verif.Spec.Literals
import Verif.Spec.Lookahead
import Verif.Spec.Means
import Verif.Spec.Modify
import Verif.Spec.Names
import Verif.Spec.Once
import Verif.Spec.OneAhead
import Verif.Spec.Opaque
import Verif.Spec.Order
import Verif.Spec.Outcome
import Verif.Spec.Peg
import Verif.Spec.PegCalls
import Verif.Spec.Places
import Verif.Spec.Predict
import Verif.Spec.Print
import Verif.Spec.Recorded
import Verif.Spec.Repeat
import Verif.Spec.Replace
import Verif.Spec.Respelt
import Verif.Spec.Result
import Verif.Spec.Size
import Verif.Spec.Stack
import Verif.Spec.Stateful
import Verif.Spec.StatefulTerminate
import Verif.Spec.Templates
import Verif.Spec.Terminate
import Verif.Spec.Text
import Verif.Spec.Together
import Verif.Spec.Types
import Verif.Spec.Unparse
import Verif.Spec.Used
import Verif.Spec.ValueType
import Verif.Spec.Values
import Verif.Spec.Verdict
import Verif.Spec.Written
import Verif.Spec.WrittenTerminate
import Verif.Tests.Check
import Verif.Tests.Gen.CharAliasesApplyFilter
import Verif.Tests.Gen.CharAliasesApplyInto
import Verif.Tests.Gen.CharAliasesApplyMap
import Verif.Tests.Gen.CharAliasesConstant
import Verif.Tests.Gen.CharAliasesDefaulted
import Verif.Tests.Gen.CharAliasesInto
import Verif.Tests.Gen.CharModifiersApply
import Verif.Tests.Gen.CharModifiersApplyFilter
import Verif.Tests.Gen.CharModifiersApplyInto
import Verif.Tests.Gen.CharModifiersComplete
import Verif.Tests.Gen.CharModifiersConstant
import Verif.Tests.Gen.CharModifiersDefaulted
import Verif.Tests.Gen.CharModifiersDelimit
import Verif.Tests.Gen.CharModifiersDelimitKeep
import Verif.Tests.Gen.CharModifiersExactly
import Verif.Tests.Gen.CharModifiersFilter
import Verif.Tests.Gen.CharModifiersIgnore
import Verif.Tests.Gen.CharModifiersInto
import Verif.Tests.Gen.CharModifiersJoin
import Verif.Tests.Gen.CharModifiersMap
import Verif.Tests.Gen.CharModifiersMulti
import Verif.Tests.Gen.CharModifiersName
import Verif.Tests.Gen.CharModifiersSub
import Verif.Tests.Gen.CharOperatorsBasic
import Verif.Tests.Gen.CharOperatorsChoice
import Verif.Tests.Gen.CharOperatorsEpsilon
import Verif.Tests.Gen.CharOperatorsMaybe
import Verif.Tests.Gen.CharOperatorsNot
import Verif.Tests.Gen.CharOperatorsOneOrMore
import Verif.Tests.Gen.CharOperatorsSequence
import Verif.Tests.Gen.CharOperatorsZeroOrMore
import Verif.Tests.Gen.CharOptimizationsJoinExactlyBasicOptimization
import Verif.Tests.Gen.CharOptimizationsJoinMaybeBasicOptimization
import Verif.Tests.Gen.CharOptimizationsJoinOneOrMoreBasicOptimization
import Verif.Tests.Gen.CharOptimizationsJoinZeroOrMoreBasicOptimization
import Verif.Tests.Gen.CharParsersAllOfParser
import Verif.Tests.Gen.CharParsersAnyOfParser
import Verif.Tests.Gen.CharParsersAnythingParser
import Verif.Tests.Gen.CharParsersChoiceParser
import Verif.Tests.Gen.CharParsersCompleteParser
import Verif.Tests.Gen.CharParsersCustomParser
import Verif.Tests.Gen.CharParsersDelimitParser
import Verif.Tests.Gen.CharParsersEpsilonParser
import Verif.Tests.Gen.CharParsersExactlyParser
import Verif.Tests.Gen.CharParsersFilterParser
import Verif.Tests.Gen.CharParsersIgnoreParser
import Verif.Tests.Gen.CharParsersJoinParser
import Verif.Tests.Gen.CharParsersMapParser
import Verif.Tests.Gen.CharParsersMaybeParser
import Verif.Tests.Gen.CharParsersNamedParser
import Verif.Tests.Gen.CharParsersNoneOfParser
import Verif.Tests.Gen.CharParsersOneOrMoreParser
import Verif.Tests.Gen.CharParsersSequenceParser
import Verif.Tests.Gen.CharParsersZeroOrMoreParser
import Verif.Tests.Gen.NonCharOperatorsBasic
import Verif.Tests.Gen.NonCharOperatorsEpsilon
import Verif.Tests.Gen.NonCharOperatorsNot
import Verif.Tests.Gen.NonCharParsersAllOfParser
import Verif.Tests.Gen.NonCharParsersAnyOfParser
import Verif.Tests.Gen.NonCharParsersAnythingParser
import Verif.Tests.Gen.NonCharParsersEpsilonParser
import Verif.Tests.Gen.NonCharParsersNoneOfParser
import Verif.Tests.Gen.SamplesChar
import Verif.Tests.Gen.SamplesNonChar
