import Verif.Model.Base
import Verif.Model.Cookie
import Verif.Model.BuildStep
import Verif.Model.Frugal
import Verif.Lemmas.Base
import Verif.Lemmas.Cookie
import Verif.Props.Cookie
import Verif.Props.BuildStep
import Verif.Props.Frugal
import Verif.Model.Pool
import Verif.Lemmas.Pool
import Verif.Lemmas.PoolRely
import Verif.Props.Pool
import Verif.Model.Build
import Verif.Model.Cmd
import Verif.Spec.Build
import Verif.Lemmas.Build
import Verif.Lemmas.BuildRun
import Verif.Lemmas.BuildCfg
import Verif.Lemmas.BuildHist
import Verif.Lemmas.BuildFlow
import Verif.Lemmas.BuildDest
import Verif.Lemmas.BuildRes
import Verif.Spec.Demo
import Verif.Props.Build
import Verif.Lemmas.BuildPast
import Verif.Lemmas.BuildEnd
import Verif.Lemmas.BuildSeq
import Verif.Props.Rebuild
import Verif.Props.Schedule
import Verif.Props.Replay
import Verif.Props.Cmd
import Verif.Model.Install
import Verif.Lemmas.Install
import Verif.Props.Install
import Verif.Model.Cli
import Verif.Props.Cli
import Verif.Props.CliTrace
import Verif.Model.Flamingo.Syntax
import Verif.Model.Flamingo.Heap
import Verif.Model.Flamingo.Host
import Verif.Model.Flamingo.Interp
import Verif.Lemmas.FlBasic
import Verif.Lemmas.FlFrame
import Verif.Lemmas.FlFrameRun
import Verif.Spec.Flamingo
import Verif.Lemmas.FlQuiet
import Verif.Props.FlNames
import Verif.Props.FlOps
import Verif.Props.FlLiterals
import Verif.Lemmas.FlCall
import Verif.Props.FlCalls
import Verif.Lemmas.FlClosure
import Verif.Model.Flamingo.Setup
import Verif.Spec.FlHost
import Verif.Props.FlDeterminism
import Verif.Props.FlRequests
import Verif.Spec.FlVal
import Verif.Props.FlEq
import Verif.Props.FlMaps
import Verif.Lemmas.FlPtm
import Verif.Props.FlMethods
import Verif.Props.FlAssign
import Verif.Spec.FlVec
import Verif.Props.FlVec
import Verif.Props.FlPrint
import Verif.Props.FlConcat
import Verif.Props.FlErrors
import Verif.Props.FlInst
import Verif.Props.FlImport
import Verif.Props.FlCrash
import Verif.Spec.FlSafe
import Verif.Lemmas.FlMem
import Verif.Lemmas.FlWf
import Verif.Lemmas.FlWfOps
import Verif.Lemmas.FlWfScopes
import Verif.Lemmas.FlSafe
import Verif.Lemmas.FlSafeEval
import Verif.Lemmas.FlSafeExpr
import Verif.Lemmas.FlSafeHost
import Verif.Lemmas.FlSafePtm
import Verif.Lemmas.FlSafeCall
import Verif.Lemmas.FlSafeStmt
import Verif.Props.FlSafe
import Verif.Lemmas.FlMeanFn
import Verif.Lemmas.FlMeanReq
import Verif.Lemmas.FlMeanExpr
import Verif.Lemmas.FlMeanStmt
import Verif.Lemmas.FlMeanBob
import Verif.Props.FlMean
import Verif.Model.Tools
import Verif.Props.Tools
import Verif.Spec.Whole
import Verif.Lemmas.OneProg
import Verif.Props.Whole
import Verif.Props.WholeInst
import Verif.Props.FlDestroy
import Verif.Model.Logging
import Verif.Spec.Terminal
import Verif.Props.Logging
import Verif.Model.CopyErr
import Verif.Props.CopyErr
import Verif.Props.FlHandover
import Verif.Model.Stdio
import Verif.Props.Stdio
import Verif.Model.Parallel
import Verif.Props.Parallel
import Verif.Model.Fds
import Verif.Props.Fds
import Verif.Model.LogLock
import Verif.Props.LogLock
import Verif.Model.Buffers
import Verif.Lemmas.Buffers
import Verif.Props.Buffers
import Verif.Model.Threads
import Verif.Props.Threads
import Verif.Props.Looks
import Verif.Model.Parser.Tables
import Verif.Model.Parser.Lexer
import Verif.Model.Parser.Driver
import Verif.Spec.FlGrammar
import Verif.Lemmas.ParTable
import Verif.Lemmas.ParFacts
import Verif.Lemmas.ParSound
import Verif.Lemmas.ParRun
import Verif.Lemmas.ParYield
import Verif.Lemmas.ParTerm
import Verif.Lemmas.ParEq
import Verif.Props.Parse
import Verif.Spec.FlPrec
import Verif.Lemmas.ParPrec
import Verif.Props.ParsePrec
import Verif.Spec.FlWords
import Verif.Spec.FlText
import Verif.Model.Parser.Nodes
import Verif.Model.Parser.Lower
import Verif.Lemmas.ParComp
import Verif.Lemmas.LexWord
import Verif.Lemmas.WriteTree
import Verif.Lemmas.WriteTable
import Verif.Lemmas.WriteFits
import Verif.Lemmas.WriteDer
import Verif.Lemmas.WriteDer2
import Verif.Lemmas.WriteYield
import Verif.Lemmas.WriteLow
import Verif.Lemmas.WriteLower
import Verif.Lemmas.WriteLower2
import Verif.Props.RoundTrip
import Verif.Spec.FlTokens
import Verif.Lemmas.LexSpell
import Verif.Lemmas.ParLeaves
import Verif.Props.Tokens
import Verif.Spec.FlSense
import Verif.Lemmas.SenseNodes
import Verif.Lemmas.SenseLower
import Verif.Lemmas.SenseMain
import Verif.Props.Sense
import Verif.Spec.FlLike
import Verif.Spec.FlTexts
import Verif.Lemmas.FlSim
import Verif.Lemmas.FlSimAll
import Verif.Lemmas.FlLikeCheck
import Verif.Props.FlLayout
import Verif.Props.FlTexts
import Verif.Props.FlTextsInst
import Verif.Spec.Frugality
import Verif.Props.Frugality
import Verif.Spec.FrugalityTest
import Verif.Props.FrugalityTest
import Verif.Props.FrugalityTestInst
import Verif.Spec.RunTests
import Verif.Props.RunTests
import Verif.Props.RunTestsInst
import Verif.Model.Owner
import Verif.Props.Owner
import Verif.Props.OwnerInst
import Verif.Props.OwnerTest
import Verif.Props.OwnerTestInst
import Verif.Model.Fts
import Verif.Spec.Fts
import Verif.Props.Fts
import Verif.Props.FtsShown
import Verif.Spec.SelfTest
import Verif.Props.SelfTest
import Verif.Props.SelfTestInst
import Verif.Model.Archive
import Verif.Spec.Archive
import Verif.Props.Archive
import Verif.Props.ArchiveInst
import Verif.Model.TreeBuild
import Verif.Spec.TreeBuild
import Verif.Props.TreeBuild
import Verif.Props.TreeBuildInst
import Verif.Spec.TreeInstall
import Verif.Props.TreeInstall
import Verif.Props.TreeInstallInst
import Verif.Model.Crowd
import Verif.Spec.Crowd
import Verif.Lemmas.Crowd
import Verif.Lemmas.CrowdFlow
import Verif.Props.Crowd
import Verif.Props.CrowdInst
import Verif.Props.TreeDirs
import Verif.Spec.MidEdit
import Verif.Lemmas.MidEdit
import Verif.Props.MidEdit
import Verif.Props.MidEditInst
import Verif.Spec.Torn
import Verif.Lemmas.Torn
import Verif.Props.Torn
import Verif.Props.TornInst
import Verif.Spec.Times
import Verif.Props.Times
import Verif.Props.TimesInst
import Verif.Spec.Rough
import Verif.Props.Rough
import Verif.Props.RoughInst
import Verif.Model.Bootstrap
import Verif.Spec.Bootstrap
import Verif.Props.Bootstrap
import Verif.Props.BootstrapInst
import Verif.Model.Parser.Utf8
import Verif.Spec.Utf8
import Verif.Props.Utf8
import Verif.Props.Utf8Inst
import Verif.Spec.RunNow
import Verif.Props.RunNow
import Verif.Props.RunNowInst
import Verif.Model.Parser.Mend
import Verif.Spec.Mend
import Verif.Lemmas.Mend
import Verif.Lemmas.MendLower
import Verif.Props.Mend
import Verif.Model.Apple
import Verif.Spec.Apple
import Verif.Props.Apple
import Verif.Spec.Pads
import Verif.Lemmas.LexPad
import Verif.Lemmas.ParPad
import Verif.Lemmas.PadLower
import Verif.Props.Pads
import Verif.Model.Tests
import Verif.Spec.Tests
import Verif.Props.Tests
import Verif.Props.TestsInst
import Verif.Model.Place
import Verif.Spec.Place
import Verif.Props.Place
import Verif.Props.PlaceInst
import Verif.Model.Links
import Verif.Model.LinksAll
import Verif.Spec.Links
import Verif.Spec.LinksAll
import Verif.Lemmas.Links
import Verif.Props.Links
import Verif.Props.LinksInst
import Verif.Props.LinksNone
import Verif.Props.LinksBeside
import Verif.Props.LinksBesideInst
import Verif.Props.LinksAgain
import Verif.Props.LinksAgainDir
import Verif.Props.LinksAgainInst
import Verif.Props.LinksAll
import Verif.Props.LinksAllNone
import Verif.Props.LinksAllInst
import Verif.Props.LinksCopies
import Verif.Props.LinksCopiesInst
import Verif.Props.LinksRest
import Verif.Props.LinksRestInst
import Verif.Audit
