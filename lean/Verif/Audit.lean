import Verif.Props.Cookie
import Verif.Props.BuildStep
import Verif.Props.Frugal
import Verif.Props.Pool
import Verif.Props.Build
import Verif.Props.Rebuild
import Verif.Props.Schedule
import Verif.Props.Replay
import Verif.Props.Cmd
import Verif.Props.Install
import Verif.Props.Cli
import Verif.Props.CliTrace
import Verif.Props.FlNames
import Verif.Props.FlOps
import Verif.Props.FlLiterals
import Verif.Props.FlCalls
import Verif.Props.FlDeterminism
import Verif.Props.FlRequests
import Verif.Props.FlEq
import Verif.Props.FlMaps
import Verif.Props.FlMethods
import Verif.Props.FlAssign
import Verif.Props.FlVec
import Verif.Props.FlConcat
import Verif.Props.FlErrors
import Verif.Props.FlInst
import Verif.Props.FlImport
import Verif.Props.FlCrash
import Verif.Props.FlSafe
import Verif.Props.FlMean
import Verif.Props.Tools
import Verif.Props.Whole
import Verif.Props.WholeInst
import Verif.Props.FlDestroy
import Verif.Props.Logging
import Verif.Props.CopyErr
import Verif.Props.FlHandover
import Verif.Props.Stdio
import Verif.Props.Parallel
import Verif.Props.Fds
import Verif.Props.LogLock
import Verif.Props.Buffers
import Verif.Props.Threads
import Verif.Props.Looks
import Verif.Props.Parse
import Verif.Props.ParsePrec
import Verif.Props.RoundTrip
import Verif.Props.Tokens
import Verif.Props.Sense
import Verif.Props.Frugality
import Verif.Props.FrugalityTest
import Verif.Props.FrugalityTestInst
import Verif.Props.RunTestsInst
import Verif.Props.OwnerInst
import Verif.Props.OwnerTestInst
import Verif.Props.Fts
import Verif.Props.FtsShown
import Verif.Props.SelfTest
import Verif.Props.SelfTestInst
import Verif.Props.Archive
import Verif.Props.ArchiveInst
import Verif.Props.TreeBuild
import Verif.Props.TreeBuildInst
import Verif.Props.TreeInstall
import Verif.Props.TreeInstallInst
import Verif.Props.Crowd
import Verif.Props.CrowdInst
import Verif.Props.TreeDirs
import Verif.Props.MidEdit
import Verif.Props.MidEditInst
import Verif.Props.Torn
import Verif.Props.TornInst
import Verif.Props.Times
import Verif.Props.TimesInst
import Verif.Props.Bootstrap
import Verif.Props.BootstrapInst
import Verif.Props.Utf8
import Verif.Props.Utf8Inst
import Verif.Props.RunNow
import Verif.Props.RunNowInst
import Verif.Props.Mend
import Verif.Props.Pads
import Verif.Props.Tests
import Verif.Props.TestsInst
import Verif.Props.Apple
import Verif.Props.RoughInst
import Verif.Props.FlLayout
import Verif.Props.FlTexts
import Verif.Props.FlTextsInst
import Verif.Props.Place
import Verif.Props.PlaceInst
import Verif.Props.LinksInst
import Verif.Props.LinksNone
import Verif.Props.LinksBesideInst
import Verif.Props.LinksAgainInst
import Verif.Props.LinksAllInst
import Verif.Props.LinksCopiesInst
import Verif.Props.LinksRestInst
import Lean.Elab.Command
/-!
# Axioms

Compiling this file checks that nothing in `Bob` depends on an axiom other than the three standard ones.  It follows all constants used, directly or not.
-/

open Lean Elab Command in
run_cmd do
  let env ← getEnv
  let mut todo := env.constants.fold (fun (a : Array Name) n _ => if (`Bob).isPrefixOf n then a.push n else a) #[]
  let own := todo.size
  let mut seen : NameSet := {}
  let mut axs : Array Name := #[]
  while !todo.isEmpty do
    let n := todo.back!
    todo := todo.pop
    if seen.contains n then continue
    seen := seen.insert n
    let some ci := env.find? n | continue
    if ci matches .axiomInfo _ then axs := axs.push n
    todo := todo ++ ci.getUsedConstantsAsSet.toArray
    if let .inductInfo v := ci then todo := todo ++ v.ctors.toArray
  for a in axs do
    unless [``propext, ``Classical.choice, ``Quot.sound].contains a do
      throwError "unexpected axiom {a}"
  logInfo m!"{own} declarations of this project use {seen.size} constants and no axioms other than {axs}"
