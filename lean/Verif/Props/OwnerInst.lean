import Verif.Props.Owner
import Verif.Spec.Demo
/-!
# Samples for C105: a program linked from one object
-/

namespace Bob.OwnerDemo

def obj : Bytes := b!".bob/bob/x.o"
def app : Bytes := b!".bob/bob/app.l"
def dst : Bytes := b!".bob/prefix/bin/app"

/-- root builds in `/p`, which belongs to user 1000. -/
def owners : Owners where
  me := 0
  owner := 1000
  absOut := b!"/p/.bob"
  full p := if p.head? = some SLASH then p else b!"/p/" ++ p

def tc : Toolchain where
  deps _ _ _ := none
  obj _ _ _ := none
  diag _ _ _ := []
  objFailRemoves _ _ _ := false
  link _ fs srcs _ := some (srcs.flatMap fun p => (fs.content p).getD [])
  linkDiag _ _ _ _ := b!"warning"
  linkFailRemoves _ _ _ _ := false

/-- What `bob run` and `bob sh` install while building, `src/bsys.c:98`. -/
def toPrefix (bad : Bytes → Bool) : InstCfg := ⟨some b!".bob/prefix", [(app, b!"bin/app")], bad⟩

def reqs : List Req := [.link ⟨false, [obj], app, []⟩]

def s0 : Store where
  fs p := if p = obj then some ⟨b!"X", 1⟩ else none
  now := 5
  trace := []
  buf _ := []

/-- What there is after `c` and how it is owned. -/
def ran (c : InstCfg) : OCfg :=
  let a0 : Cfg := .idle reqs s0
  let step := fun (o : OCfg) =>
    match o.due none with
    | some p => (⟨o.cfg, chowns (setOwner (owners.env o.cfg.store.fs) p) o.own, OCfg.setDue o.due none none⟩ : OCfg)
    | none => match seqNext tc c o.cfg with
      | some b => ⟨b, ownAfter owners.me (fun _ => false) o.cfg.store b.store o.own, OCfg.setDue o.due none (dueMain tc o.cfg)⟩
      | none => o
  step (step (step (step (step (step (step (step ⟨a0, fun _ => 1000, fun _ => none⟩)))))))

theorem step_reaches {c : InstCfg} {o0 o : OCfg} (h : Steps (OStep owners tc c 1) o0 o) :
    Steps (OStep owners tc c 1) o0 (match o.due none with
      | some p => (⟨o.cfg, chowns (setOwner (owners.env o.cfg.store.fs) p) o.own, OCfg.setDue o.due none none⟩ : OCfg)
      | none => match seqNext tc c o.cfg with
        | some b => ⟨b, ownAfter owners.me (fun _ => false) o.cfg.store b.store o.own, OCfg.setDue o.due none (dueMain tc o.cfg)⟩
        | none => o) := by
  obtain ⟨a, own, due⟩ := o
  dsimp only
  split
  · rename_i p hp
    exact h.tail (.chown none p hp)
  · rename_i hd
    split
    · rename_i b hb
      exact h.tail (.main (fun _ => false) (by simp) hd hb)
    · exact h

theorem ran_reaches (c : InstCfg) : OReaches owners tc c 1 reqs s0 (fun _ => 1000) (ran c) :=
  step_reaches <| step_reaches <| step_reaches <| step_reaches <| step_reaches <| step_reaches <| step_reaches <| step_reaches (.refl _)

theorem ran_ends (c : InstCfg) (hc : c = toPrefix (fun _ => false) ∨ c = ⟨none, [(app, b!"bin/app")], fun _ => false⟩) :
    (∃ s, (ran c).cfg = .finished true s) ∧ (ran c).due none = none := by
  rcases hc with rfl | rfl <;> exact ⟨⟨_, rfl⟩, rfl⟩

/-- `bob build` as root: the program, the record of its flags and its log belong to user 1000. -/
example : (let o := ran ⟨none, [(app, b!"bin/app")], fun _ => false⟩
    ([app, flagsPath app, logPath app].all fun p => (o.cfg.store.fs p).isSome && o.own p == 1000)) = true := by decide +kernel

/-- **C105 is false of `bob run` and `bob sh`**: what they install in `.bob/prefix` stays root's. -/
theorem C105_prefix_false : ∃ o s, OReaches owners tc (toPrefix fun _ => false) 1 reqs s0 (fun _ => 1000) o ∧ o.cfg = .finished true s ∧ (∀ t, o.due t = none) ∧
    (s.fs dst).isSome ∧ owners.inside dst ∧ o.own dst = 0 := by
  refine ⟨ran (toPrefix fun _ => false), _, ran_reaches _, rfl, fun t => ?_, by decide +kernel, ⟨b!"/prefix/bin/app", by decide⟩, by decide +kernel⟩
  cases t <;> rfl

/-- Some time after root's run of it, user 1000 has a new object. -/
def s1 : Store :=
  let s := (ran (toPrefix fun _ => false)).cfg.store
  { s with fs := s.fs.set obj (some ⟨b!"Y", 9⟩), now := 9 }

/-- `cp` cannot write to a file of another user. -/
def denied (own : Bytes → Nat) (fs : FS) (p : Bytes) : Bool := (fs p).isSome && own p != 1000

/-- **C105, consequence.** After root's `bob run`, that of user 1000 fails once there is something new to install; it would not if the file were theirs. -/
theorem C105_run_later_false :
    (∃ s, BuildReaches tc (toPrefix (denied (ran (toPrefix fun _ => false)).own s1.fs)) 1 reqs s1 (.finished false s)) ∧
    ∃ s, BuildReaches tc (toPrefix (denied (fun _ => 1000) s1.fs)) 1 reqs s1 (.finished true s) :=
  ⟨⟨_, autoBuild_reaches (by decide +kernel)⟩, _, autoBuild_reaches (by decide +kernel)⟩

end Bob.OwnerDemo
