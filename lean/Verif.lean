import Verif.Model.Base
import Verif.Model.Types
import Verif.Model.Regex
import Verif.Model.Backend
import Verif.Model.Number
import Verif.Model.Render
import Verif.Model.Args
import Verif.Model.Parts
import Verif.Model.Queries
import Verif.Model.Has
import Verif.Model.Compare
import Verif.Spec.Lexer
import Verif.Spec.Names
import Verif.Proofs.Lex
import Verif.Proofs.Regex
import Verif.Proofs.Reference
import Verif.Proofs.RefForm
import Verif.Props.Strings
import Verif.Spec.Numeral
import Verif.Proofs.Number
import Verif.Props.Numbers
import Verif.Spec.Dates
import Verif.Props.Values
import Verif.Proofs.Basic
import Verif.Props.Lists
import Verif.Spec.FirstUse
import Verif.Spec.Arguments
import Verif.Proofs.State
import Verif.Proofs.Sort
import Verif.Props.Relations
import Verif.Props.Types
import Verif.Props.Parsing
import Verif.Proofs.Plain
import Verif.Props.Accumulate
import Verif.Spec.History
import Verif.Spec.Joins
import Verif.Proofs.Strip
import Verif.Proofs.Minimize
import Verif.Props.Guards
import Verif.Props.Settings
import Verif.Props.Rendering
import Verif.Props.Joins
import Verif.Spec.Inserts
import Verif.Props.Inserts
import Verif.Spec.Grammar
import Verif.Spec.Safe
import Verif.Proofs.Tokens
import Verif.Proofs.TokensRead
import Verif.Proofs.TokensStmt
import Verif.Proofs.TokensMain
import Verif.Proofs.Mono
import Verif.Proofs.Depth
import Verif.Props.Termination
import Verif.Proofs.SafeMono
import Verif.Proofs.TokensGrammar
import Verif.Proofs.GrammarFacts
import Verif.Spec.Like
import Verif.Proofs.TokensLike
import Verif.Spec.Clauses
import Verif.Proofs.ClauseFacts
import Verif.Proofs.SafeDecide
import Verif.Props.Grammar
import Verif.Spec.Nesting
import Verif.Proofs.NestedText
import Verif.Props.Nesting
import Verif.Spec.Truth
import Verif.Spec.CondTree
import Verif.Proofs.TruthFacts
import Verif.Proofs.TruthTree
import Verif.Proofs.InList
import Verif.Proofs.ClauseBody
import Verif.Props.Conditions
import Verif.Spec.Unions
import Verif.Proofs.UnionFacts
import Verif.Props.Unions
import Verif.Spec.Has
import Verif.Proofs.HasFacts
import Verif.Proofs.HasViews
import Verif.Props.Has
import Verif.Model.Functions
import Verif.Props.Functions
import Verif.Spec.Parts
import Verif.Proofs.BackendFacts
import Verif.Props.Backends
import Verif.Props.Failures
import Verif.Spec.Regular
import Verif.Proofs.ErrFacts
import Verif.Spec.Calls
import Verif.Proofs.CallFacts
import Verif.Props.Exceptions
import Verif.Spec.Equality
import Verif.Proofs.EqFacts
import Verif.Props.Equality
import Verif.Model.Heap
import Verif.Spec.Heap
import Verif.Spec.Layout
import Verif.Proofs.HeapFacts
import Verif.Props.Copy
import Verif.Model.HeapCalls
import Verif.Spec.Frame
import Verif.Spec.Runtime
import Verif.Spec.Sample
import Verif.Proofs.FrameFacts
import Verif.Props.Arguments
import Verif.Proofs.RegionFacts
import Verif.Props.Retention
import Verif.Conformance.Harness
import Verif.Conformance.Argsparser
import Verif.Conformance.Columns
import Verif.Conformance.Custom
import Verif.Conformance.Delete
import Verif.Conformance.Docs
import Verif.Conformance.Functions
import Verif.Conformance.Groupby
import Verif.Conformance.Having
import Verif.Conformance.Insert
import Verif.Conformance.Limit
import Verif.Conformance.Mysql
import Verif.Conformance.Orderby
import Verif.Conformance.Postgresql
import Verif.Conformance.Select
import Verif.Conformance.Sqlite
import Verif.Conformance.Sqlpuzzle
import Verif.Conformance.Sqlvalue
import Verif.Conformance.Tables
import Verif.Conformance.Union
import Verif.Conformance.Update
import Verif.Conformance.Values
import Verif.Conformance.Where
import Verif.Spec.Accumulate
import Verif.Spec.Parsing
import Verif.Spec.Entries
import Verif.Proofs.Accumulate
import Verif.Proofs.Parsing
import Verif.Proofs.DictOrder
import Verif.Proofs.Entries
import Verif.Spec.Settings
import Verif.Spec.Statement
import Verif.Proofs.Settings
import Verif.Proofs.Statement
import Verif.Proofs.Inserts
import Verif.Proofs.Guards
import Verif.Proofs.Rendering
import Verif.Proofs.Joins
import Verif.Spec.JoinCalls
import Verif.Spec.Plain
import Verif.Props.Statement
import Verif.Spec.Compare
import Verif.Props.Compare
import Verif.Props.WhereMeaning
import Verif.Spec.Shows
import Verif.Spec.MemCalls
import Verif.Proofs.RefineBasic
import Verif.Proofs.RefineArgs
import Verif.Proofs.RefineLists
import Verif.Proofs.RefineParts
import Verif.Proofs.RefineOwn
import Verif.Proofs.RefineJoin
import Verif.Proofs.RefineQuery
import Verif.Proofs.RefineSlots
import Verif.Proofs.RefineAttrs
import Verif.Proofs.RefineCalls
import Verif.Proofs.RefineText
import Verif.Proofs.ShowsDet
import Verif.Proofs.Oracle
import Verif.Props.Memory
import Verif.Proofs.FailPrefix
import Verif.Model.Threads
import Verif.Spec.Threads
import Verif.Proofs.Threads
import Verif.Props.Threads
import Verif.Spec.Tidy
import Verif.Proofs.Uniq
import Verif.Proofs.UniqParts
import Verif.Proofs.UniqClauses
import Verif.Proofs.UniqStatement
import Verif.Proofs.UniqInsert
import Verif.Props.Distinct
import Verif.Spec.Batches
import Verif.Proofs.Batches
import Verif.Props.Batches
import Verif.Model.Sessions
import Verif.Spec.Late
import Verif.Proofs.Late
import Verif.Props.Late
import Verif.Spec.JoinHistory
import Verif.Proofs.JoinHistory
import Verif.Props.JoinHistory
import Verif.Model.Touch
import Verif.Spec.Nested
import Verif.Proofs.Touch
import Verif.Props.Nested
import Verif.Model.HasCalls
import Verif.Props.HasEffect
import Verif.Spec.CallClauses
import Verif.Proofs.Commute
import Verif.Proofs.RenderCalls
import Verif.Props.CallOrder
import Verif.Model.Pattern
import Verif.Spec.Pattern
import Verif.Proofs.Pattern
import Verif.Props.HasPattern
import Verif.Model.RenderThreads
import Verif.Spec.RenderThreads
import Verif.Proofs.RenderThreads
import Verif.Props.RenderThreads
import Verif.Spec.Assign
import Verif.Props.Assign
import Verif.Spec.Interrupt
import Verif.Proofs.Interrupt
import Verif.Props.Interrupt
import Verif.Spec.Effects
import Verif.Proofs.Effects
import Verif.Props.Effects
import Verif.Spec.Answers
import Verif.Proofs.Answers
import Verif.Props.Answers
import Verif.Spec.Accepted
import Verif.Spec.AcceptedChanges
import Verif.Proofs.Accepted
import Verif.Proofs.AcceptedChanges
import Verif.Props.Accepted
import Verif.Props.AcceptedChanges
import Verif.Spec.Sources
import Verif.Proofs.Sources
import Verif.Props.Sources
import Verif.Spec.Groups
import Verif.Proofs.Groups
import Verif.Props.Groups
import Verif.Spec.Changes
import Verif.Proofs.Changes
import Verif.Props.Changes
import Verif.Spec.Written
import Verif.Proofs.Written
import Verif.Props.Written
import Verif.Props.NestedAnswers
import Verif.Spec.Chosen
import Verif.Props.Chosen
import Verif.Spec.Inserted
import Verif.Proofs.Inserted
import Verif.Props.Inserted
import Verif.Model.OrderThreads
import Verif.Spec.OrderThreads
import Verif.Proofs.OrderThreads
import Verif.Props.OrderThreads
import Verif.Spec.Composed
import Verif.Proofs.Composed
import Verif.Props.Composed
import Verif.Proofs.ComposedChanges
import Verif.Props.ComposedChanges
import Verif.Spec.QuotedNames
import Verif.Props.QuotedNames
import Verif.Spec.UnionEnds
import Verif.Proofs.UnionEnds
import Verif.Props.UnionEnds
import Verif.Model.RowThreads
import Verif.Spec.RowThreads
import Verif.Props.RowThreads
import Verif.Spec.UnionTexts
import Verif.Proofs.UniqUnion
import Verif.Props.DistinctUnions
import Verif.Spec.ClassNames
import Verif.Spec.InnerQueries
import Verif.Proofs.InnerQueries
import Verif.Props.InnerQueries
import Verif.Model.SettingThreads
import Verif.Spec.SettingThreads
import Verif.Proofs.SettingThreads
import Verif.Props.SettingThreads
import Verif.Spec.AnySources
import Verif.Proofs.AnySources
import Verif.Props.AnySources
import Verif.Spec.DictKeys
import Verif.Props.DictKeys
import Verif.Proofs.RegexText
import Verif.Props.HasRegex
import Verif.Spec.Calendar
import Verif.Proofs.Calendar
import Verif.Props.Calendar
import Verif.Spec.PlainEq
import Verif.Props.PlainEq
import Verif.Spec.Named
import Verif.Props.Dropped
import Verif.Props.InsertStop
