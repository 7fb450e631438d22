import Verif.Basic
import Verif.Stream
import Verif.Prog
import Verif.Cursor
import Verif.CursorLemmas
import Verif.Refine
import Verif.Error
import Verif.Parser
import Verif.Primitive
import Verif.Algorithm
import Verif.Combinator
import Verif.Scanner
import Verif.Recovery
import Verif.Grammar
import Verif.Sem
import Verif.RefLogic
import Verif.SemRefine
import Verif.SemRefine2
import Verif.SemRefine3
import Verif.Location
import Verif.Api
import Verif.Reach
import Verif.BufferBound
import Verif.Examples
import Verif.PropsStream
import Verif.PropsLocation
import Verif.ParserBase
import Verif.SemRecovery
import Verif.GAll
import Verif.Conditions
import Verif.SemClean
import Verif.SemErr
import Verif.SemHide
import Verif.SemPanic
import Verif.SemAssert
import Verif.ExGrammars
import Verif.PropsParser
import Verif.RunAt
import Verif.SemChoice
import Verif.PropsChoice
import Verif.SemSeq
import Verif.PropsSeq
import Verif.PropsPrimitive
import Verif.SemRepeat
import Verif.PropsRepeat
import Verif.SpecRecovery
import Verif.SemStrategy
import Verif.PropsRecovery
import Verif.PropsScanner
import Verif.SemShift
import Verif.PropsApi
import Verif.PropsRecursion
import Verif.PropsLocality
import Verif.SpecPeg
import Verif.SemTidy
import Verif.SemPeg
import Verif.SemPeg2
import Verif.PropsPeg
import Verif.SpecTerm
import Verif.SemEmpty
import Verif.SemTerm
import Verif.PropsTerm
import Verif.Display
import Verif.PropsError
import Verif.Tokenizer
import Verif.PropsTokenizer
import Verif.Chars
import Verif.Builder
import Verif.PropsBuilder
import Verif.PropsLaws
import Verif.SemCongr
import Verif.SpecReplace
import Verif.SemReplace
import Verif.PropsCongruence
import Verif.Json
import Verif.SpecJson
import Verif.SemPegStep
import Verif.SemJson
import Verif.SemJson2
import Verif.SemJson3
import Verif.SemJson4
import Verif.SemJson5
import Verif.SemJson6
import Verif.SemPanicOff
import Verif.PropsJson
import Verif.PropsFlag
import Verif.Pangram
import Verif.SpecPangram
import Verif.SemPangram
import Verif.SemPangram2
import Verif.SemPangram3
import Verif.SemPangram4
import Verif.PropsPangram
import Verif.Visitor
import Verif.SpecVisitor
import Verif.SemVisitor
import Verif.SemVisitor2
import Verif.PropsVisitor
import Verif.SpecHonest
import Verif.SemHonest
import Verif.PropsHonest
import Verif.Regex
import Verif.SpecLexer
import Verif.SemRegex
import Verif.LexerRegexes
import Verif.SemLexer
import Verif.SemLexer2
import Verif.SemLexer3
import Verif.PropsLexer
import Verif.Pipeline
import Verif.SemPipeline
import Verif.PropsPipeline
import Verif.SpecCost
import Verif.SemCost
import Verif.SemCost2
import Verif.SemCost3
import Verif.SemCost4
import Verif.PropsCost
import Verif.SemCost5
import Verif.SemCost6
import Verif.SemCost7
import Verif.SemCost8
import Verif.SemCost9
import Verif.PropsCost2
import Verif.SpecMemory
import Verif.SemMemory
import Verif.SemMemory2
import Verif.SemMemory3
import Verif.SemMemory4
import Verif.PropsMemory
import Verif.Handles
import Verif.SpecHandles
import Verif.SemHandles
import Verif.SemHandles2
import Verif.PropsHandles
import Verif.SpecEbnf
import Verif.SemSelfSpec
import Verif.SemSelfSpec2
import Verif.SemSelfSpec3
import Verif.PropsSelfSpec
import Verif.SpecDepth
import Verif.SemDepth
import Verif.SemDepth2
import Verif.PropsDepth
import Verif.SemLe
import Verif.SemCost10
import Verif.PropsCost3
import Verif.RepoTests
import Verif.SpecReport
import Verif.SemReport
import Verif.SemReport2
import Verif.PropsReport
import Verif.PropsGroup
import Verif.SpecPrefix
import Verif.SemPrefix
import Verif.PropsPrefix
import Verif.SpecPanic
import Verif.SemPanics
import Verif.PropsPanic
import Verif.SpecGeneric
import Verif.SemGeneric
import Verif.PropsGeneric
import Verif.SpecDelims
import Verif.PropsDelims
import Verif.SpecCfg
import Verif.SemCfg
import Verif.PropsCfg
import Verif.SpecMistake
import Verif.SemMistake
import Verif.PropsMistake
import Verif.PropsPhrases
import Verif.SpecWithout
import Verif.SemWithout
import Verif.PropsWithout
import Verif.SemStatements
import Verif.PropsStatements
