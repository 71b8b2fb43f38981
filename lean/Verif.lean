import Verif.Chars
import Verif.Nom
import Verif.Ast
import Verif.Parser
import Verif.F64
import Verif.Operands
import Verif.FloatDisplay
import Verif.Rust
import Verif.GenPr
import Verif.LangId
import Verif.GenRs
import Verif.Generate
import Verif.AnySort
import Verif.RulesRead
import Verif.RulesText
import Verif.RulesTable
import Verif.CldrData
import Verif.Fixtures
import Verif.CldrText
import Verif.Json
import Verif.Resource
import Verif.Main
import Verif.FileRead
import Verif.Api
import Verif.Uts35
import Verif.Intended
import Verif.Spec
import Verif.Grammar
import Verif.InputSpec
import Verif.JsonSpec
import Verif.ResourceSpec
import Verif.Lemmas.Order
import Verif.Lemmas.Strings
import Verif.Lemmas.Float
import Verif.Lemmas.Uts35
import Verif.Lemmas.Semantics
import Verif.Lemmas.Eval
import Verif.Lemmas.Precedence
import Verif.Lemmas.Conditions
import Verif.Lemmas.Nom
import Verif.Lemmas.Parser
import Verif.Lemmas.Print
import Verif.Lemmas.Exclude
import Verif.Lemmas.Maps
import Verif.Lemmas.Generate
import Verif.Lemmas.Entry
import Verif.Lemmas.Round
import Verif.Lemmas.Display
import Verif.Lemmas.FloatText
import Verif.Lemmas.Fifteen
import Verif.Lemmas.Json
import Verif.Lemmas.Resource
import Verif.Lemmas.Render
import Verif.Lemmas.FileRead
import Verif.Lemmas.UtsSyntax
import Verif.Props.Locales
import Verif.Props.Select
import Verif.Props.Tables
import Verif.Props.Codegen
import Verif.Props.Operands
import Verif.Props.Parser
import Verif.Props.Categories
import Verif.Props.Zeros
import Verif.Props.Generator
import Verif.Props.Floats
import Verif.Props.FloatDecimals
import Verif.Props.Files
import Verif.Props.Output
import Verif.Props.Meaning
import Verif.Props.NotNumbers
import Verif.Props.Panics
import Verif.Props.Exponents
import Verif.Equality
import Verif.Props.Equality
import Verif.Props.Regenerate
import Verif.Props.Literals
import Verif.Props.Shipped
import Verif.Props.RepoTests
import Verif.Props.Exact
import Verif.Props.Errors
import Verif.Props.Samples
import Verif.Props.Periodic
import Verif.Props.AllNumbers
import Verif.Props.Rounding
import Verif.Props.Syntax
import Verif.Props.AnySort
import Verif.Props.Longest
import Verif.Props.HostWidth
import Verif.Props.Identifiers
import Verif.Props.AnySearch
import Verif.Props.Library
import Verif.Props.AnyRules
import Verif.Props.Layout
import Verif.Props.OnOperands
import Verif.Props.TargetWidth
import Verif.Props.ByteText
import Verif.Props.SampleSelect
import Verif.Props.Telling
import Verif.Props.AnyRead
import Verif.Props.Matters
import Verif.Props.SearchTrace
import Verif.Props.Update
import Verif.Props.ParserSteps
import Verif.Props.OldCodes
import Verif.Props.AnyCast
import Verif.Props.SampleKinds
import Verif.Props.Probes
import Verif.Props.Unchecked
import Verif.Props.Rounded
import Verif.Props.FarIntegers
import Verif.Props.AnyTexts
import Verif.Props.Rewrites
import Verif.Props.WithoutN
import Verif.Props.FiniteTests
import Verif.Props.Needless
import Verif.Props.Overlaps
import Verif.Props.Pinned
import Verif.Props.Slips
import Verif.Props.Image
