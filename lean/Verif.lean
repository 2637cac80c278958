import Verif.Tests
import Verif.TestsFloat
import Verif.Model.Basic
import Verif.Model.Bytes
import Verif.Model.Concurrent
import Verif.Model.Converter
import Verif.Model.Counted
import Verif.Model.Float
import Verif.Model.Json
import Verif.Model.Lexer
import Verif.Model.Memory
import Verif.Model.Mysql
import Verif.Model.Objects
import Verif.Model.Output
import Verif.Model.Parse
import Verif.Model.Postgres
import Verif.Model.Sqlite
import Verif.Model.Validator
import Verif.Model.Value
import Verif.Model.Words
import Verif.Model.Work
import Verif.Spec.Again
import Verif.Spec.Alike
import Verif.Spec.Ast
import Verif.Spec.Bytes
import Verif.Spec.Denote
import Verif.Spec.Dialects
import Verif.Spec.Entry
import Verif.Spec.Grammar
import Verif.Spec.Hang
import Verif.Spec.Json
import Verif.Spec.KeyWords
import Verif.Spec.Lang
import Verif.Spec.Letters
import Verif.Spec.Lexeme
import Verif.Spec.Lexical
import Verif.Spec.Memory
import Verif.Spec.Number
import Verif.Spec.Obs
import Verif.Spec.Order
import Verif.Spec.Origin
import Verif.Spec.Output
import Verif.Spec.Print
import Verif.Spec.Readme
import Verif.Spec.Reported
import Verif.Spec.Session
import Verif.Spec.Source
import Verif.Spec.Tidy
import Verif.Spec.Value
import Verif.Spec.Words
import Verif.Proof.Again
import Verif.Proof.Agree
import Verif.Proof.AgreeCon
import Verif.Proof.AgreeItem
import Verif.Proof.AgreeScript
import Verif.Proof.AgreeStep
import Verif.Proof.AgreeType
import Verif.Proof.Alike
import Verif.Proof.AlikeConv
import Verif.Proof.AlikeParse
import Verif.Proof.AlikeSweep
import Verif.Proof.AstFacts
import Verif.Proof.Before
import Verif.Proof.BeforeRep
import Verif.Proof.Bound
import Verif.Proof.Brackets
import Verif.Proof.Bytes
import Verif.Proof.Conc
import Verif.Proof.ConcConv
import Verif.Proof.ConcPool
import Verif.Proof.Concat
import Verif.Proof.Conv
import Verif.Proof.ConvGen
import Verif.Proof.ConvHang
import Verif.Proof.ConvReported
import Verif.Proof.ConvStab
import Verif.Proof.Cost
import Verif.Proof.Counted
import Verif.Proof.CountedLex
import Verif.Proof.Cut
import Verif.Proof.Derive
import Verif.Proof.Emit
import Verif.Proof.Emits
import Verif.Proof.Entry
import Verif.Proof.ErrFacts
import Verif.Proof.Exact
import Verif.Proof.ExactScript
import Verif.Proof.Facts
import Verif.Proof.Flat
import Verif.Proof.FlatItem
import Verif.Proof.Float
import Verif.Proof.Follow
import Verif.Proof.ForceFacts
import Verif.Proof.Generic
import Verif.Proof.GoBase
import Verif.Proof.GoConverter
import Verif.Proof.GoConverterLow
import Verif.Proof.GoLexer
import Verif.Proof.GoLimit
import Verif.Proof.GoMysql
import Verif.Proof.GoPostgres
import Verif.Proof.GoRules
import Verif.Proof.GoSame
import Verif.Proof.GoShared
import Verif.Proof.GoSqlite
import Verif.Proof.GoTop
import Verif.Proof.GrammarFacts
import Verif.Proof.Hang
import Verif.Proof.Impl
import Verif.Proof.JsonText
import Verif.Proof.JsonWrite
import Verif.Proof.Layout
import Verif.Proof.Letters
import Verif.Proof.LexBare
import Verif.Proof.LexCase
import Verif.Proof.LexMono
import Verif.Proof.LexMore
import Verif.Proof.LexSpec
import Verif.Proof.Lexer
import Verif.Proof.Lexical
import Verif.Proof.Local
import Verif.Proof.Memory
import Verif.Proof.MemoryConv
import Verif.Proof.MemoryRead
import Verif.Proof.MemoryShare
import Verif.Proof.MemoryTable
import Verif.Proof.Mono
import Verif.Proof.MysqlImpl
import Verif.Proof.Num
import Verif.Proof.Number
import Verif.Proof.NumberText
import Verif.Proof.Objects
import Verif.Proof.Order
import Verif.Proof.Origin
import Verif.Proof.Output
import Verif.Proof.ParseFacts
import Verif.Proof.Pick
import Verif.Proof.PostgresImpl
import Verif.Proof.Print
import Verif.Proof.PrintCon
import Verif.Proof.PrintItem
import Verif.Proof.PrintScript
import Verif.Proof.PrintText
import Verif.Proof.Prog
import Verif.Proof.Readme
import Verif.Proof.ReadmeCheck
import Verif.Proof.ReadmeCommon
import Verif.Proof.ReadmeMysql
import Verif.Proof.ReadmePostgres
import Verif.Proof.ReadmeScript
import Verif.Proof.ReadmeSqlite
import Verif.Proof.ResultFacts
import Verif.Proof.Rewrite
import Verif.Proof.Round
import Verif.Proof.Shared
import Verif.Proof.Simple
import Verif.Proof.SqliteEmits
import Verif.Proof.SqliteImpl
import Verif.Proof.Stab
import Verif.Proof.Value
import Verif.Proof.Viable
import Verif.Proof.ViableMysql
import Verif.Proof.ViablePostgres
import Verif.Proof.ViableScript
import Verif.Proof.ViableSqlite
import Verif.Proof.ViableSweep
import Verif.Proof.ViableText
import Verif.Proof.Work
import Verif.Proof.WorkMysql
import Verif.Proof.WorkParse
import Verif.Proof.WorkPostgres
import Verif.Proof.WorkSqlite
import Verif.Proof.WorkSweep
import Verif.Props.Again
import Verif.Props.Alike
import Verif.Props.Before
import Verif.Props.Bound
import Verif.Props.Bytes
import Verif.Props.Columns
import Verif.Props.Compose
import Verif.Props.Concurrent
import Verif.Props.Dialects
import Verif.Props.Entry
import Verif.Props.ErrorExact
import Verif.Props.Errors
import Verif.Props.Exact
import Verif.Props.Force
import Verif.Props.Grammar
import Verif.Props.HangIff
import Verif.Props.Hangs
import Verif.Props.Json
import Verif.Props.Letters
import Verif.Props.Lexical
import Verif.Props.Lexing
import Verif.Props.Memory
import Verif.Props.Number
import Verif.Props.Numbers
import Verif.Props.Objects
import Verif.Props.Order
import Verif.Props.Origin
import Verif.Props.Output
import Verif.Props.Readme
import Verif.Props.Reported
import Verif.Props.Rewrite
import Verif.Props.RoundTrip
import Verif.Props.Safety
import Verif.Props.Source
import Verif.Props.Tables
import Verif.Props.Value
import Verif.Props.Viable
import Verif.Props.Work
