import Verif.Model.Build
import Verif.Props.Frugal
/-!
# What is assumed about projects, tools and users when speaking about builds
-/

namespace Bob

/-- What a build product is made from. -/
inductive Kind where
  | compile (src : Bytes)
  | link (archive : Bool) (srcs : List Bytes)
deriving DecidableEq, Repr

/-- Which files belong to the user, which paths are build products, and what each product is made from.  The last
point says that the path of a product determines its inputs (see C11 and C13 for when that is so). -/
structure Layout where
  user : Bytes → Prop
  isOut : Bytes → Prop
  kind : Bytes → Kind

/-- The files bob keeps for a product. -/
def Managed (out p : Bytes) : Prop := p = out ∨ p = depsPath out ∨ p = flagsPath out ∨ p = logPath out

/-- Products have the names bob gives them, and neither they nor their records nor the places products are
installed at are the user's files. -/
structure LayoutOk (L : Layout) (c : InstCfg) : Prop where
  ext : ∀ o, L.isOut o → ∃ base, ∃ e ∈ b!"ola", o = base ++ [DOT, e]
  linkSrcs : ∀ o a srcs, L.isOut o → L.kind o = .link a srcs → ∀ p ∈ srcs, L.user p ∨ L.isOut p
  outNotUser : ∀ o p, L.isOut o → Managed o p → ¬ L.user p
  destNotUser : ∀ o d, c.dest o = some d → ¬ L.user d
  destNotManaged : ∀ o d, c.dest o = some d → ∀ o', L.isOut o' → ¬ Managed o' d

/-- The compiler and the linker are deterministic and read only the files they are given or report. -/
structure ToolOk (tc : Toolchain) (L : Layout) : Prop where
  /-- reported files have sane names, belong to the user, and exist -/
  depsOk : ∀ fs src F items, tc.deps fs src F = some items →
    (fs src).isSome ∧ ∀ it ∈ items, CleanName it.2 ∧ L.user it.2 ∧ (fs it.2).isSome
  /-- if the reported files have the same contents elsewhere, so do the report, the object and the diagnostics -/
  depsLaw : ∀ fs fs' src F items, tc.deps fs src F = some items →
    (∀ p ∈ src :: items.map (·.2), fs'.content p = fs.content p) →
    tc.deps fs' src F = some items ∧ tc.obj fs' src F = tc.obj fs src F ∧ tc.diag fs' src F = tc.diag fs src F
  /-- what can be compiled can be preprocessed -/
  objDeps : ∀ fs src F o, tc.obj fs src F = some o → ∃ items, tc.deps fs src F = some items
  linkLaw : ∀ a fs fs' srcs F, (∀ p ∈ srcs, fs'.content p = fs.content p) →
    tc.link a fs' srcs F = tc.link a fs srcs F ∧ tc.linkDiag a fs' srcs F = tc.linkDiag a fs srcs F
  linkExists : ∀ a fs srcs F o, tc.link a fs srcs F = some o → ∀ p ∈ srcs, (fs p).isSome

structure CJobOk (L : Layout) (j : CJob) : Prop where
  isOut : L.isOut j.out
  kind : L.kind j.out = .compile j.src
  user : L.user j.src
  clean : ∀ f ∈ j.flags, CleanFlag f

structure LJobOk (L : Layout) (j : LJob) : Prop where
  isOut : L.isOut j.out
  kind : L.kind j.out = .link j.archive j.srcs
  srcs : ∀ p ∈ j.srcs, L.user p ∨ L.isOut p
  clean : ∀ f ∈ j.flags, CleanFlag f

def Req.outs : Req → List Bytes
  | .compile jobs => jobs.map (·.out)
  | .link j => [j.out]

def outsOf (reqs : List Req) : List Bytes := reqs.flatMap Req.outs

def ReqOk (L : Layout) : Req → Prop
  | .compile jobs => ∀ j ∈ jobs, CJobOk L j
  | .link j => LJobOk L j

/-- A project whose products are all different, and in which nothing is linked before it is made. -/
structure ReqsOk (L : Layout) (reqs : List Req) : Prop where
  jobs : ∀ r ∈ reqs, ReqOk L r
  nodup : (outsOf reqs).Nodup
  ordered : ∀ pre j post, reqs = pre ++ .link j :: post → ∀ p ∈ j.srcs, p ∉ outsOf (.link j :: post)

/-- The object is what compiling gives now, and bob's records about it are right. -/
structure CFresh (tc : Toolchain) (fs : FS) (j : CJob) : Prop where
  obj : ∃ o, fs j.out = some o ∧ tc.obj fs j.src j.flags = some o.content ∧
    ∃ items, tc.deps fs j.src j.flags = some items ∧
      (∃ d, fs (depsPath j.out) = some d ∧ d.content = depsText (ruleText items)) ∧
      ∀ p ∈ j.src :: items.map (·.2), ∃ f, fs p = some f ∧ f.mtime ≤ o.mtime
  flags : ∃ r, fs (flagsPath j.out) = some r ∧ cstr r.content = flagText j.flags

/-- The same for a link product. -/
structure LFresh (tc : Toolchain) (fs : FS) (j : LJob) : Prop where
  out : ∃ o, fs j.out = some o ∧ tc.link j.archive fs j.srcs j.flags = some o.content ∧
    ∀ p ∈ j.srcs, ∃ f, fs p = some f ∧ f.mtime ≤ o.mtime
  flags : ∃ r, fs (flagsPath j.out) = some r ∧ cstr r.content = flagText j.flags

/-- What a log file should contain: the output, as far as it is text, or there is none if nothing was printed. -/
def logOf (output : Bytes) : Option Bytes := if cstr output = [] then none else some (cstr output)

/-- The flags with which the products of a request are made. -/
def Req.flagsOf (r : Req) (out : Bytes) (F : List Bytes) : Prop :=
  match r with
  | .compile jobs => ∃ j ∈ jobs, j.out = out ∧ j.flags = F
  | .link j => j.out = out ∧ j.flags = F

/-- A build finds an existing product whose recorded flags are not the ones it is to be made with. -/
def FlagsChanged (s : Store) (reqs : List Req) (out : Bytes) : Prop :=
  (s.fs out).isSome ∧ ∃ r ∈ reqs, ∃ F, r.flagsOf out F ∧
    ∀ f, s.fs (flagsPath out) = some f → cstr f.content ≠ flagText F

/-- Freshness of the products outside of the set `T`, and of the logs of those that are also not in `TL`. -/
def ReqFreshT (tc : Toolchain) (T TL : Bytes → Prop) (fs : FS) : Req → Prop
  | .compile jobs => ∀ j ∈ jobs, ¬ T j.out → CFresh tc fs j ∧
      (¬ TL j.out → fs.content (logPath j.out) = logOf (tc.diag fs j.src j.flags))
  | .link j => ¬ T j.out → LFresh tc fs j ∧
      (¬ TL j.out → fs.content (logPath j.out) = logOf (tc.linkDiag j.archive fs j.srcs j.flags))

/-- What people do between builds: time passes; files of theirs are changed (and stamped with the time of the change) or
deleted; files bob keeps may be deleted; all other files may change in any way. -/
structure Edit (L : Layout) (s s' : Store) : Prop where
  later : s.now < s'.now
  user : ∀ p, L.user p → s'.fs p = s.fs p ∨ s'.fs p = none ∨ ∃ f, s'.fs p = some f ∧ s.now < f.mtime ∧ f.mtime ≤ s'.now
  managed : ∀ o, L.isOut o → ∀ p, Managed o p → s'.fs p = s.fs p ∨ s'.fs p = none

/-- A working directory before its first build. -/
structure Pristine (L : Layout) (s : Store) : Prop where
  user : ∀ p, L.user p → ∀ f, s.fs p = some f → f.mtime ≤ s.now
  managed : ∀ o, L.isOut o → ∀ p, Managed o p → s.fs p = none

/-- A working directory after any number of edits and builds, of projects and with install maps that may change from build
to build.  Builds may be stopped anywhere, by being killed or by a failure.

The first set contains the products whose flags were changed by a build that was stopped.  The second set contains those
whose log was deleted or which a stopped build may have been making. -/
inductive History (tc : Toolchain) (L : Layout) : (Bytes → Prop) → (Bytes → Prop) → Store → Prop where
  | start {s} (h : Pristine L s) : History tc L (fun _ => False) (fun _ => False) s
  | built {T TL s s1 s2 c n reqs} (h : History tc L T TL s) (he : Edit L s s1) (hL : LayoutOk L c) (hR : ReqsOk L reqs) (hn : 0 < n)
      (hb : BuildReaches tc c n reqs s1 (.finished true s2)) :
      History tc L (fun o => T o ∧ ¬ FlagsChanged s1 reqs o) (fun o => TL o ∨ s1.fs (logPath o) ≠ s.fs (logPath o)) s2
  | stopped {T TL s s1 cfg c n reqs} (h : History tc L T TL s) (he : Edit L s s1) (hL : LayoutOk L c) (hR : ReqsOk L reqs) (hn : 0 < n)
      (hb : BuildReaches tc c n reqs s1 cfg) :
      History tc L (fun o => T o ∨ FlagsChanged s1 reqs o)
        (fun o => (TL o ∨ s1.fs (logPath o) ≠ s.fs (logPath o)) ∨ o ∈ outsOf reqs) cfg.store
  /-- a product that was deleted is no longer of concern -/
  | forget {T T' TL TL' : Bytes → Prop} {s} (h : History tc L T TL s) (hT : ∀ o, T o → T' o ∨ s.fs o = none)
      (hTL : ∀ o, TL o → TL' o ∨ s.fs o = none) : History tc L T' TL' s

/-! ## Ordinary uses -/

/-- Every product of the project is what the compiler or linker yields for the present files. -/
def ProjFresh (tc : Toolchain) (fs : FS) (reqs : List Req) : Prop :=
  ∀ r ∈ reqs, match r with
    | .compile jobs => ∀ j ∈ jobs, ∃ o, tc.obj fs j.src j.flags = some o ∧ fs.content j.out = some o
    | .link j => ∃ o, tc.link j.archive fs j.srcs j.flags = some o ∧ fs.content j.out = some o

/-- Edits and successful builds. -/
inductive Builds (tc : Toolchain) (L : Layout) : Store → Prop where
  | start {s} (h : Pristine L s) : Builds tc L s
  | built {s s1 s2 c n reqs} (h : Builds tc L s) (he : Edit L s s1) (hL : LayoutOk L c) (hR : ReqsOk L reqs) (hn : 0 < n)
      (hb : BuildReaches tc c n reqs s1 (.finished true s2)) : Builds tc L s2

/-- Edits and builds that may fail or be killed at any point, where every product is always asked for with the same flags
and nobody deletes a record of flags without the product it belongs to. -/
inductive Killed (tc : Toolchain) (L : Layout) (flags : Bytes → List Bytes) : Store → Prop where
  | start {s} (h : Pristine L s) : Killed tc L flags s
  | built {s s1 cfg c n reqs} (h : Killed tc L flags s) (he : Edit L s s1)
      (hrec : ∀ o, L.isOut o → s1.fs (flagsPath o) = s.fs (flagsPath o) ∨ s1.fs o = none)
      (hL : LayoutOk L c) (hR : ReqsOk L reqs) (hF : ∀ r ∈ reqs, ∀ o F, r.flagsOf o F → F = flags o) (hn : 0 < n)
      (hb : BuildReaches tc c n reqs s1 cfg) : Killed tc L flags cfg.store

/-- A working directory after any number of edits and builds, of any projects, with any flags and install maps, that may have
succeeded, failed or been killed at any point. -/
inductive Past (tc : Toolchain) (L : Layout) : Store → Prop where
  | start {s} (h : Pristine L s) : Past tc L s
  | built {s s1 cfg c n reqs} (h : Past tc L s) (he : Edit L s s1) (hL : LayoutOk L c) (hR : ReqsOk L reqs) (hn : 0 < n)
      (hb : BuildReaches tc c n reqs s1 cfg) : Past tc L cfg.store

/-- No two products are installed at the same place. -/
def DestInj (L : Layout) (c : InstCfg) : Prop := ∀ o o' d, L.isOut o → L.isOut o' → c.dest o = some d → c.dest o' = some d → o = o'

/-- A working directory in which nothing carries a time stamp from the future, products are older than the build, and
bob's records list files of the user. -/
structure Settled (L : Layout) (s0 : Store) : Prop where
  user : ∀ p, L.user p → ∀ f, s0.fs p = some f → f.mtime ≤ s0.now
  outs : ∀ o, L.isOut o → ∀ f, s0.fs o = some f → f.mtime < s0.now
  deps : ∀ o, L.isOut o → ∀ d, s0.fs (depsPath o) = some d → ∀ p ∈ readDeps d.content, L.user p

/-- The result of a build that came to its end. -/
def Cfg.result : Cfg → Option Bool
  | .finished ok _ => some ok
  | _ => none

theorem result_finished {cfg : Cfg} {ok : Bool} (h : cfg.result = some ok) : cfg = .finished ok cfg.store := by
  cases cfg <;> simp_all [Cfg.result, Cfg.store]

end Bob
