import Verif.Lemmas.FlMeanVec
/-!
# Calls, up to running what is called
-/

namespace Bob.Fl

theorem nameCells_kept (i : Nat) : ∀ (ks : List Bytes) (cs : List Nat) (l : List Cell), (∀ c ∈ cs, ∀ x, l[c]? = some x → ¬ x.data.Named) → CellsKept l (nameCells i ks cs l)
  | [], _, l, _ => CellsKept.refl l
  | _ :: _, [], l, _ => CellsKept.refl l
  | k :: ks, c :: cs, l, h => by
    unfold nameCells
    cases h0 : l[c]? with
    | none => exact nameCells_kept i ks cs l fun c hc => h c (List.mem_cons_of_mem _ hc)
    | some y =>
      have hk : CellsKept l (l.set c { y with name := k, keyIn := some i }) := CellsKept.set h0 rfl fun hn => absurd hn (h c List.mem_cons_self y h0)
      refine hk.trans (nameCells_kept i ks cs _ fun c' hc' x hx => ?_)
      rcases getElem?_set hx with ⟨rfl, rfl, _⟩ | ⟨_, hx⟩
      · exact h _ List.mem_cons_self y h0
      · exact h c' (List.mem_cons_of_mem _ hc') x hx

/-- The state after a call, given the one in which its body ended. -/
def St.left (st : List Nat) (s s1 : St) : St := { s1 with envs := s1.envs.set s1.eng.env st, eng := { s1.eng with body := s.eng.body, env := s.eng.env } }

theorem Idle.left (st : List Nat) (s s1 : St) : Idle s1 (s.left st s1) := Idle.ctx rfl rfl rfl rfl rfl rfl

section
variable {L : Discipline} {C P T : List Nat} {s s' : St} {w : World} {X : List Nat} {r : List Ask} {st : List Nat} {ρ : Names}

theorem Wf.enterSt (h : Wf L C P T s) {f : FnData} {inst : Option Nat} (hst : s.envs[f.env.getD s.eng.env]? = some st) (hin : ∀ i ∈ inst.toList ++ st, i < s.scopes.length) : Wf L C P T (enterSt f inst st s) := by
  have hlt := lt_of_get hst
  refine (h.newScope { cls := f.kind == .cls } rfl rfl (fun c hc => (nomatch hc))).context (E := s.envs.set (f.env.getD s.eng.env) (s.scopes.length :: (inst.toList ++ st)))
    (g := { s.eng with body := f.body, env := f.env.getD s.eng.env }) (fun j st' hj i hi => ?_) (by simp) (by simpa using hlt) h.shape.ptm h.shape.rv h.shape.rvs (fun _ => Nat.le_refl _) h.inT
  show i < (s.scopes ++ [_]).length
  rw [List.length_append, List.length_singleton]
  rcases getElem?_set hj with ⟨_, rfl, _⟩ | ⟨_, hj⟩
  · rcases List.mem_cons.1 hi with rfl | hi
    · omega
    · have := hin i hi
      omega
  · have := h.shape.envs j st' hj i hi
    omega

/-- The names that arguments get. -/
def FnData.names (f : FnData) (args : List Nat) (params : List Bytes) : Prop := (∃ p, f.kind = .ptm p ∧ params = args.map fun _ => []) ∨ ((∀ p, f.kind ≠ .ptm p) ∧ params = f.params ∧ f.params.length = args.length)

/-- A call, up to running its body. -/
structure Inside (w : World) (L : Discipline) (C P T : List Nat) (callable : Nat) (f : FnData) (acc inst : Option Nat) (args : List Nat) (params : List Bytes) (st : List Nat) (s s0 : St) : Prop where
  entered : Entered f inst st params args s s0
  idle : Idle s s0
  wf : Wf L C P T s0
  ok : CallOk P callable f acc args s0
  run : ∀ {Q : Option Nat → St → Prop}, Conv (fun n => runBody w (interp w n) callable f acc .keep args) s0 (fun ran s1 => Conv (fun n => afterCall (interp w n) callable f.kind .keep args ran) (s.left st s1) Q) →
    Conv (fun n => (interp w n).call callable acc .keep args) s Q

theorem inside (hW : w.Ok L) {callable : Nat} {f : FnData} {acc inst : Option Nat} {args : List Nat} {params : List Bytes} (h : Wf L C P T s) (hc : CallOk P callable f acc args s)
    (hinst : instScope acc s = .ok inst s) (hst : s.envs[f.env.getD s.eng.env]? = some st) (hp : f.names args params) (hn : ∀ c ∈ args, ∀ x, s.cells[c]? = some x → ¬ x.data.Named) :
    ∃ s0, Inside w L C P T callable f acc inst args params st s s0 := by
  obtain ⟨x, hx, hd⟩ := hc.fn
  have hok := (h.shape.data _ x hx).2
  rw [hd] at hok
  obtain ⟨hps, _, _⟩ := hok
  have hin : ∀ i ∈ inst.toList ++ st, i < s.scopes.length := by
    intro i hi
    rcases List.mem_append.1 hi with hi | hi
    · have := (safe_instScope h hc.accd)
      rw [Safe, hinst] at this
      exact this.2 i (Option.mem_toList.1 hi)
    · exact h.shape.envs _ _ hst i hi
  have hal : ∀ c ∈ args, c < s.cells.length := fun c hc' => by
    obtain ⟨_, y, hy, _⟩ := hc.argd c hc'
    exact lt_of_get hy
  have hlen : params.length = args.length := by
    rcases hp with ⟨p, _, rfl⟩ | ⟨_, rfl, hl⟩
    · simp
    · exact hl
  have hset : setupArgs s.scopes.length f args (enterSt f inst st s) = bindArgs s.scopes.length params args (enterSt f inst st s) := by
    rcases hp with ⟨p, hk, rfl⟩ | ⟨hk, rfl, hl⟩
    · unfold setupArgs
      rw [hk]
    · exact setupArgs_eq hl hk _ _
  have hbind := hset.trans (bindArgs_eq (x := { cls := f.kind == .cls }) hlen ⟨by simp [enterSt], rfl⟩ hal)
  generalize hs0 : ({ enterSt f inst st s with scopes := _, cells := _ } : St) = s0 at hbind
  have hlt := lt_of_get hst
  have hent : Entered f inst st params args s s0 := by
    obtain ⟨h1, h2⟩ := nameCells_spec params args s.cells
    subst hs0
    exact {
      eng := rfl
      stack := List.getElem?_set_self hlt
      other := fun j hj => List.getElem?_set_ne (Ne.symm hj)
      scopes := by simp [boundVars, enterSt]
      count := h1
      cells := h2
      bufs := rfl
      bodies := rfl
      host := rfl
      out := rfl
      calls := rfl }
  have hw1 := h.enterSt hst hin
  have hg1 : ∀ F, Grow F s (enterSt f inst st s) := fun F => Grow.newScope _ _ _ (by simp)
  have hc1 := hc.sup (hg1 []).toSup
  have hsafe := safe_setupArgs hW hps hc1.argd (i := s.scopes.length) (by simp [enterSt]) hw1
  rw [Safe, hbind] at hsafe
  refine ⟨s0, hent, ?_, hsafe.1, hc1.sup (hsafe.2.1 []).toSup, fun {Q} hrun => ?_⟩
  · refine Idle.of ?_ (hent.bufs ▸ SlotsKept.refl _) (hent.bodies ▸ SlotsKept.refl _) (hent.scopes ▸ ScopesKept.push _ _) hent.host hent.out
    subst hs0
    exact nameCells_kept _ params args s.cells hn
  · refine Conv.succ (m' := fun n => stepCall w (interp w n) callable acc .keep args) (fun _ => rfl) ?_
    have heq : ∀ n, stepCall w (interp w n) callable acc .keep args s = (do
        let ran ← runBody w (interp w n) callable f acc .keep args
        leave s.eng inst
        afterCall (interp w n) callable f.kind .keep args ran : M (Option Nat)) s0 := by
      intro n
      unfold stepCall
      rw [bind_of_ok ((getCell_ok_iff ..).2 ⟨hx, rfl⟩), hd]
      simp only
      rw [bind_of_ok hinst, bind_of_ok (get_apply s), bind_of_ok (enter_eq hst (h.topAlive hin)), bind_of_ok hbind]
    refine Conv.of_eq heq (Conv.bind ((hrun.keeps fun n => kE_runBody (recFr w n) w callable f acc .keep args).mono fun ran s1 ⟨h1, hf⟩ => ?_))
    have hst1 : s1.Stack (s.scopes.length :: (inst.toList ++ st)) := by
      have := hent.stack
      unfold St.Stack at this ⊢
      rw [hf.env]
      exact hf.envs _ _ this
    exact Conv.bind_ok (m := fun _ => leave s.eng inst) (fun _ => leave_eq hst1) h1

theorem conv_rv {callable v : Nat} {f : FnData} {args : List Nat} {sc : Option Nat} {Q : Option Nat → St → Prop} (hf : s.Holds callable (.fn f)) (hk : f.kind ≠ .cls) (hv : s.eng.rv = .val v)
    (hq : ∀ s', Idle s s' → Q (some v) s') : Conv (fun n => finish (interp w n) callable sc .keep args) s Q :=
  Conv.ok (fun _ => finish_val hf hk hv) (hq _ (Idle.ctx rfl rfl rfl rfl rfl rfl))

/-- Members of strings and vectors. -/
theorem Inside.ptm {callable : Nat} {f : FnData} {acc inst : Option Nat} {args : List Nat} {params : List Bytes} {s0 : St} (h : Inside w L C P T callable f acc inst args params st s s0) (hr : s.eng.rv = .none) {p : Ptm}
    (hk : f.kind = .ptm p) {Q : Nat → St → Prop} (hrun : Conv (fun n => runPtm (interp w n) p acc args) s0 fun v s1 => Stays s0 s1 ∧ Q v s1) :
    Conv (fun n => (interp w n).call callable acc .keep args) s fun o s' => ∃ v s1, o = some v ∧ Q v s1 ∧ Idle s1 s' := by
  refine h.run ?_
  unfold runBody
  rw [hk]
  dsimp only
  have hr0 : s0.eng.rv = .none := by rw [h.entered.eng]; exact hr
  refine Conv.bind_ok (m := fun _ => getRv) (fun _ => getRv_apply _) ?_
  rw [hr0]
  refine Conv.bind_ok (m := fun _ => M.assert _) (fun _ => rfl) ?_
  refine Conv.bind (hrun.mono fun v s1 ⟨hs, hq⟩ => Conv.bind_ok (m := fun _ => setRv (.val v)) (fun _ => setRv_apply ..) (Conv.pure ?_))
  have hh : (s.left st ({ s1 with eng := { s1.eng with rv := .val v } } : St)).Holds callable (.fn f) := by
    obtain ⟨y, hy, hyd⟩ := h.ok.fn
    exact hs.toPast.holds ⟨y, hy, hyd⟩
  refine conv_rv hh (by rw [hk]; exact fun h => nomatch h) rfl fun s' hi => ⟨v, s1, rfl, hq, Idle.trans (Idle.trans (i_setRv (.val v) |>.out (setRv_apply ..)) (Idle.left st s _)) hi⟩

/-- Functions of bob's classes. -/
theorem Inside.extern {callable : Nat} {f : FnData} {acc inst : Option Nat} {args : List Nat} {params : List Bytes} {s0 : St} (h : Inside w L C P T callable f acc inst args params st s s0) (hr : s.eng.rv = .none)
    (hk : f.kind = .extern) {Q : Nat → St → Prop} (hrun : Conv (fun _ => externFn w callable args) s0 fun v s1 => Past s0 s1 ∧ Q v s1) :
    Conv (fun n => (interp w n).call callable acc .keep args) s fun o s' => ∃ v s1, o = some v ∧ Q v s1 ∧ Idle s1 s' := by
  refine h.run ?_
  unfold runBody
  rw [hk]
  dsimp only
  have hr0 : s0.eng.rv = .none := by rw [h.entered.eng]; exact hr
  refine Conv.bind_ok (m := fun _ => getRv) (fun _ => getRv_apply _) ?_
  rw [hr0]
  refine Conv.bind_ok (m := fun _ => M.assert _) (fun _ => rfl) ?_
  refine Conv.bind (m := fun _ => externFn w callable args) (hrun.mono fun v s1 ⟨hs, hq⟩ => Conv.bind_ok (m := fun _ => M.modify _) (fun _ => modify_apply ..) (Conv.bind_ok (m := fun _ => setRv (.val v)) (fun _ => setRv_apply ..) (Conv.pure ?_)))
  refine conv_rv (f := f) ?_ (by rw [hk]; exact fun h => nomatch h) rfl fun s' hi => ⟨v, s1, rfl, hq, Idle.trans (by exact Idle.ctx rfl rfl rfl rfl rfl rfl) hi⟩
  obtain ⟨y, hy, hyd⟩ := h.ok.fn
  exact hs.holds ⟨y, hy, hyd⟩

/-! ## Call expressions -/

/-- A call expression: the callable, the arguments, the call. -/
theorem conv_evalCall (hW : w.Ok L) {f : Expr} {args : List Expr} (hok : (Expr.call f args).ok L false = true) (h : Wf L C P T s) (hr : s.eng.rv = .none) {K : Option Nat → Nat → FnData → St → Prop}
    {A : Option Nat → Nat → FnData → List Nat → St → Prop} {Q : Nat → St → Prop}
    (hf : Conv (fun n => (interp w n).eval .keep f) s fun r s1 => ∃ c fd, r.val = some c ∧ s1.Holds c (.fn fd) ∧ K r.acc c fd s1)
    (ha : ∀ ⦃acc : Option Nat⦄ ⦃c : Nat⦄ ⦃fd : FnData⦄ ⦃s1 : St⦄, K acc c fd s1 → Wf L C (c :: (acc.toList ++ P)) T s1 → Quit s s1 → Conv (fun n => each (interp w n).value args) s1 fun cs s2 => A acc c fd cs s2)
    (hc : ∀ ⦃acc : Option Nat⦄ ⦃c : Nat⦄ ⦃fd : FnData⦄ ⦃cs : List Nat⦄ ⦃s2 : St⦄, A acc c fd cs s2 → CallOk (cs ++ (c :: (acc.toList ++ P))) c fd acc cs s2 → Wf L C (cs ++ (c :: (acc.toList ++ P))) T s2 → Quit s s2 →
      Conv (fun n => (interp w n).call c acc .keep cs) s2 fun o s3 => ∃ v, o = some v ∧ Q v s3) :
    Conv (fun n => (interp w n).value (.call f args)) s Q := by
  unfold Expr.ok at hok
  simp only [ok_and] at hok
  obtain ⟨⟨hfok, _⟩, hargs⟩ := hok
  refine conv_value (e := .call f args) (Conv.bind (m := fun n => (interp w n).eval .keep f) ((hf.safe fun n => (safeX hW n).toSafeE.eval .keep hfok h hr).mono fun r s1 ⟨⟨c, fd, hrc, hfd, hK⟩, hv, hq⟩ => ?_))
  have hw : Wf L C (c :: (r.acc.toList ++ P)) T s1 := by
    have hwf := hv.wf
    rw [hrc] at hwf
    cases hn : f.isNew L <;> rw [hn] at hwf
    · exact Wf.keep hwf
    · exact hwf
  obtain ⟨x, hx, hval⟩ := hv.val c hrc
  obtain ⟨x', hx', hd⟩ := hfd
  cases hx.symm.trans hx'
  refine Conv.bind_ok (m := fun _ => M.deref r.val) (fun _ => (deref_ok_iff ..).2 ⟨hrc, rfl⟩) ?_
  refine Conv.bind_ok (m := fun _ => getCell c) (fun _ => (getCell_ok_iff ..).2 ⟨hx, rfl⟩) ?_
  rw [hd]
  dsimp only
  refine Conv.bind (((ha hK hw hq).safe fun n => safe_vals (safeX hW n).toSafeE hargs hw hq.2).mono fun cs s2 ⟨hA, hw2, hp2, hg2, hq2⟩ => ?_)
  obtain ⟨x2, hx2, hd2⟩ := hg2.toSup.cells c x hx
  rw [hd] at hval
  have hcall : CallOk (cs ++ (c :: (r.acc.toList ++ P))) c fd r.acc cs s2 := by
    refine ⟨⟨x2, hx2, hd2.trans hd⟩, by simp, fun a ha => by simp [ha], fun c' hc' => ⟨by simp [hc'], hp2 c' hc'⟩, fun p hp => ?_⟩
    cases hm : f.memberName <;> rw [hm] at hval
    · exact absurd hp (hval.1 p)
    · obtain ⟨a, z, p', h1, h2, h3, h4⟩ := hval
      cases h4
      cases hp
      obtain ⟨z', hz', hzd⟩ := hg2.toSup.cells a z h2
      exact ⟨a, z', _, h1, hz', hzd ▸ h3⟩
  exact Conv.bind ((hc hA hcall hw2 (hq.trans hq2)).mono fun o s3 ⟨v, ho, hQ⟩ => Conv.pure ⟨v, ho, hQ⟩)

/-! ## Members of strings and vectors -/

theorem conv_member (hW : w.Ok L) {e : Expr} {name : Bytes} {v : Val} {q : List Ask} {k : Nat} {p : Ptm} (hok : e.ok L false = true) (he : Ev w L ρ e v q) (hk : ptmIdx v.kind name = some k) (hp : members[k]? = some p)
    {r0 : List Ask} (hs : Scene w L C P T X r0 st ρ s) (hst : s.Stack st) :
    Conv (fun n => (interp w n).eval .keep (.access e name)) s fun r s1 => ∃ c fd, r.val = some c ∧ s1.Holds c (.fn fd) ∧
      (fd = { kind := .ptm p } ∧ (∃ a, r.acc = some a ∧ s1.Was v a) ∧ Stays s s1 ∧ Amb w L X (r0 ++ q) s1) := by
  refine Conv.succ (m' := fun n => evalAccess (interp w n) .keep e name) (fun _ => rfl) ?_
  unfold evalAccess accessFind
  refine Conv.bind (Conv.bind ((he.kept hW hok hs hst).mono fun a s1 ⟨h1, h2⟩ => ?_))
  obtain ⟨x, hx, hxk, _, _⟩ := Was.data h1
  obtain ⟨y, hy, hyd⟩ := h2.scene.wf.shape.ptm k p hp
  have hlive : Live s1 (s1.eng.ptm + k) := h2.scene.wf.live_pin (.inl (.inr (.inr ⟨y, hy, by rw [hyd]; exact ⟨p, rfl⟩⟩)))
  refine Conv.bind_ok (m := fun _ => getCell a) (fun _ => (getCell_ok_iff ..).2 ⟨hx, rfl⟩) ?_
  rw [← hxk] at hk
  have hgo : Conv (fun n => (match ptmIdx x.data.kind name with
      | none => raise (b!"primitive type member '" ++ name ++ b!"' doesn't exist on expression of type " ++ typeStr x.data)
      | some k => do
        let s ← M.get
        pure (none, some (s.eng.ptm + k), a) : M (Option (Nat × Nat) × Option Nat × Nat))) s1 fun o s2 => s2 = s1 ∧ o = (none, some (s1.eng.ptm + k), a) := by
    rw [hk]
    exact Conv.bind_ok (m := fun _ => M.get) (fun _ => get_apply s1) (Conv.pure ⟨rfl, rfl⟩)
  have hrest : Conv (fun n => (do
      checkDest .keep
      let c ← M.deref (some (s1.eng.ptm + k)) .uninit
      incref c
      pure { val := some c, acc := some a } : M Res)) s1 fun r s1 => ∃ c fd, r.val = some c ∧ s1.Holds c (.fn fd) ∧
      (fd = { kind := .ptm p } ∧ (∃ a, r.acc = some a ∧ s1.Was v a) ∧ Stays s s1 ∧ Amb w L X (r0 ++ q) s1) := by
    refine Conv.bind_ok (m := fun _ => checkDest .keep) (fun _ => rfl) (Conv.bind_ok (m := fun _ => M.deref (some (s1.eng.ptm + k)) .uninit) (fun _ => rfl) ?_)
    refine Conv.bind (m := fun _ => incref _) ((conv_incref h2.scene.wf hlive).mono fun _ s2 ⟨_, g2⟩ => Conv.pure ⟨_, { kind := .ptm p }, rfl, g2.toPast.holds ⟨y, hy, hyd⟩, rfl, ⟨a, rfl, g2.toPast.was h1⟩, h2.stays.trans g2.toStays, h2.scene.amb.idle g2⟩)
  cases hxd : x.data <;> rw [hxd] at hk hgo <;> first | (simp [ptmIdx, Data.kind] at hk; done) | skip
  · exact hgo.mono fun o s2 ⟨e1, e2⟩ => by rw [e1, e2]; exact hrest
  · exact hgo.mono fun o s2 ⟨e1, e2⟩ => by rw [e1, e2]; exact hrest

/-- A call of a member of a string or vector. -/
theorem ev_member (hW : w.Ok L) {e : Expr} {name : Bytes} {args : List Expr} {v u : Val} {q₁ q₂ q₃ : List Ask} {k : Nat} {p : Ptm} (hok : (Expr.call (.access e name) args).ok L false = true) (he : Ev w L ρ e v q₁)
    (hk : ptmIdx v.kind name = some k) (hp : members[k]? = some p) {Arg : List Nat → List Nat → St → Prop}
    (hArg : ∀ ⦃st cs : List Nat⦄ ⦃s s0 : St⦄, Arg st cs s → Idle s s0 → s0.eng.env = s.eng.env → (∀ j, j ≠ s.eng.env → s0.envs[j]? = s.envs[j]?) → Arg st cs s0)
    (ha : ∀ ⦃C P T X : List Nat⦄ ⦃r0 : List Ask⦄ ⦃st : List Nat⦄ ⦃s : St⦄, Scene w L C P T X r0 st ρ s → s.Stack st →
      Conv (fun n => each (interp w n).value args) s fun cs s' => Arg st cs s' ∧ (∀ c ∈ cs, ∀ x, s'.cells[c]? = some x → ¬ x.data.Named) ∧ Stays s s' ∧ Amb w L X (r0 ++ q₂) s')
    (hrun : ∀ ⦃C P T X : List Nat⦄ ⦃r0 : List Ask⦄ ⦃st : List Nat⦄ ⦃s : St⦄ ⦃a : Nat⦄ ⦃cs : List Nat⦄, Scene w L C P T X r0 st ρ s → s.Was v a → a ∈ P → (∀ c ∈ cs, c ∈ P) → Arg st cs s →
      Conv (fun n => runPtm (interp w n) p (some a) cs) s fun c s' => s'.Was u c ∧ Stays s s' ∧ Amb w L X (r0 ++ q₃) s') :
    Ev w L ρ (.call (.access e name) args) u (q₁ ++ q₂ ++ q₃) := by
  intro C P T X r0 st s hs hst
  have hok' := hok
  unfold Expr.ok at hok'
  simp only [ok_and] at hok'
  have heok := hok'.1.1
  unfold Expr.ok at heok
  simp only [ok_and] at heok
  refine conv_evalCall hW hok hs.wf hs.rv (K := fun acc c fd s1 => fd = { kind := .ptm p } ∧ (∃ a, acc = some a ∧ s1.Was v a) ∧ Stays s s1 ∧ Amb w L X (r0 ++ q₁) s1) (A := fun acc c fd cs s2 => Arg st cs s2 ∧ (∀ c ∈ cs, ∀ x, s2.cells[c]? = some x → ¬ x.data.Named) ∧ fd = { kind := .ptm p } ∧ (∃ a, acc = some a ∧ s2.Was v a) ∧ Stays s s2 ∧ Amb w L X (r0 ++ q₁ ++ q₂) s2)
    (conv_member hW heok.1 he hk hp hs hst) ?_ ?_
  · intro acc c fd s1 ⟨h1, ⟨a, h2, h3⟩, h4, h5⟩ hw hq
    exact (ha (hs.stays h4 hw hq.2 h5) (hq.stack hst)).mono fun cs s2 ⟨g1, g2, g3, g4⟩ => ⟨g1, g2, h1, ⟨a, h2, g3.toPast.was h3⟩, h4.trans g3, g4⟩
  · intro acc c fd cs s2 ⟨h1, h2, h3, ⟨a, h4, h5⟩, h6, h7⟩ hc hw hq
    subst h3 h4
    obtain ⟨z, hz, hzk, hzp, hzn⟩ := Was.data h5
    have hkk : v.kind ≠ .inst := by
      cases v <;> exact fun h => nomatch h
    have hinst : instScope (some a) s2 = .ok none s2 := by
      show (getCell a >>= fun y => match y.data with
        | .inst i => pure (some i.scope)
        | _ => pure none) s2 = _
      rw [bind_of_ok ((getCell_ok_iff ..).2 ⟨hz, rfl⟩)]
      cases hzd : z.data <;> first | rfl | (rw [hzd] at hzk; exact absurd hzk.symm hkk)
    obtain ⟨s0, hI⟩ := inside hW hw hc hinst (st := st) (hq.stack hst) (.inl ⟨p, rfl, rfl⟩) h2
    have hr0 : s0.eng.rv = .none := by rw [hI.entered.eng]; exact hq.2
    have he0 : s0.eng.env = s2.eng.env := by rw [hI.entered.eng]; rfl
    have hs0 := hs.stays (h6.trans hI.idle.toStays) hI.wf hr0 (h7.idle hI.idle)
    refine (hI.ptm hq.2 rfl ((hrun hs0 (hI.idle.toPast.was h5) (by simp) (fun c' hc' => by simp [hc']) (hArg h1 hI.idle he0 fun j hj => hI.entered.other j (by rw [he0]; exact hj))).mono fun v s1 ⟨g1, g2, g3⟩ =>
      ⟨g2, (⟨g1, g2, g3⟩ : s1.Was u v ∧ Stays s0 s1 ∧ Amb w L X (r0 ++ q₁ ++ q₂ ++ q₃) s1)⟩)).mono fun o s4 ⟨c', s3, g1, ⟨g2, g3, g4⟩, g5⟩ => ⟨c', g1, g5.toPast.was g2, ((h6.trans hI.idle.toStays).trans g3).trans g5.toStays, ?_⟩
    rw [← List.append_assoc, ← List.append_assoc]
    exact g4.idle g5

theorem ev_len (hW : w.Ok L) {e : Expr} {b : Bytes} {q : List Ask} (hok : (Expr.call (.access e b!"len") []).ok L false = true) (he : Ev w L ρ e (.str b) q) : Ev w L ρ (.call (.access e b!"len") []) (.int b.length) q := by
  rw [← List.append_nil q, ← List.append_nil (q ++ [])]
  refine ev_member hW hok he (k := 0) (p := .strLen) rfl rfl (Arg := fun _ cs _ => cs = []) (fun _ _ _ _ h _ _ _ => h) (fun C P T X r0 st s hs hst => Conv.pure ⟨rfl, fun c hc => (nomatch hc), Stays.refl s, ?_⟩)
    fun C P T X r0 st s a cs hs hv ha hcs hc => ?_
  · rw [List.append_nil]; exact hs.amb
  · subst hc
    obtain ⟨buf, ⟨x, hx, hd⟩, _⟩ := hv
    refine Conv.bind_ok (m := fun _ => M.deref (some a)) (fun _ => rfl) (Conv.bind_ok (m := fun _ => getCell a) (fun _ => (getCell_ok_iff ..).2 ⟨hx, rfl⟩) ?_)
    rw [hd]
    refine (conv_alloc (v := .int b.length) (.int b.length) fun _ h => h).mono fun c s' ⟨h1, h2⟩ => ⟨h1, h2.toStays, ?_⟩
    rw [List.append_nil]
    exact hs.amb.idle h2

theorem ev_lenVec (hW : w.Ok L) {e : Expr} {vs : List Val} {q : List Ask} (hok : (Expr.call (.access e b!"len") []).ok L false = true) (he : Ev w L ρ e (.vec vs) q) :
    Ev w L ρ (.call (.access e b!"len") []) (.int vs.length) q := by
  rw [← List.append_nil q, ← List.append_nil (q ++ [])]
  refine ev_member hW hok he (k := 3) (p := .vecLen) rfl rfl (Arg := fun _ cs _ => cs = []) (fun _ _ _ _ h _ _ _ => h) (fun C P T X r0 st s hs hst => Conv.pure ⟨rfl, fun c hc => (nomatch hc), Stays.refl s, ?_⟩)
    fun C P T X r0 st s a cs hs hv ha hcs hc => ?_
  · rw [List.append_nil]; exact hs.amb
  · subst hc
    obtain ⟨es, ⟨x, hx, hd⟩, hall⟩ := hv
    refine Conv.bind_ok (m := fun _ => M.deref (some a)) (fun _ => rfl) (Conv.bind_ok (m := fun _ => getCell a) (fun _ => (getCell_ok_iff ..).2 ⟨hx, rfl⟩) ?_)
    rw [hd, wasAll_length hall]
    refine (conv_alloc (v := .int es.length) (.int es.length) fun _ h => h).mono fun c s' ⟨h1, h2⟩ => ⟨h1, h2.toStays, ?_⟩
    rw [List.append_nil]
    exact hs.amb.idle h2

/-- One argument. -/
theorem conv_arg {a : Expr} {v : Val} {q r0 : List Ask} (h : Ev w L ρ a v q) (hs : Scene w L C P T X r0 st ρ s) (hst : s.Stack st) :
    Conv (fun n => each (interp w n).value [a]) s fun cs s' => (∃ c, cs = [c] ∧ s'.Was v c) ∧ (∀ c ∈ cs, ∀ x, s'.cells[c]? = some x → ¬ x.data.Named) ∧ Stays s s' ∧ Amb w L X (r0 ++ q) s' := by
  refine Conv.bind ((h hs hst).mono fun c s1 ⟨h1, h2, h3⟩ => Conv.bind_ok (m := fun _ => pure []) (fun _ => rfl) (Conv.pure ⟨⟨c, rfl, h1⟩, fun c' hc' x hx => ?_, h2, h3⟩))
  cases List.mem_singleton.1 hc'
  obtain ⟨y, hy, _, _, hn⟩ := Was.data h1
  cases hx.symm.trans hy
  exact hn

theorem conv_strTest {what arg : Bytes} {test : Bytes → Bytes → Bool} {a c : Nat} {b p : Bytes} {t : Bool} (hb : s.Shows (.str b) a) (hp : s.Shows (.str p) c) (ht : (if p.length ≤ b.length then test b p else false) = t)
    {x : Cell} {buf size : Nat} (hx : s.cells[a]? = some x) (hd : x.data = .str buf size) :
    Conv (fun _ => strTest what arg test buf size c) s fun c' s' => s'.Was (.bool t) c' ∧ Idle s s' := by
  obtain ⟨buf', full, h1, h2, h3⟩ := hb
  obtain ⟨pb, pf, ⟨y, hy, hyd⟩, h5, h6⟩ := hp
  cases hd.symm.trans (holds_unique ⟨x, hx, rfl⟩ h1)
  unfold strTest
  refine Conv.bind_ok (m := fun _ => getCell c) (fun _ => (getCell_ok_iff ..).2 ⟨hy, rfl⟩) ?_
  rw [hyd]
  dsimp only
  refine Conv.bind_ok (m := fun _ => strCompare test buf b.length pb p.length) (a := t) (s1 := s) (fun _ => ?_) (conv_alloc _ fun _ h => h)
  unfold strCompare
  by_cases hl : p.length ≤ b.length
  · rw [if_pos hl] at ht
    rw [if_pos hl, bind_of_ok (readBuf_some h2 h3), bind_of_ok (readBuf_some h5 h6), ht]
    rfl
  · rw [if_neg hl] at ht
    rw [if_neg hl, ← ht]
    rfl

theorem ev_strTest (hW : w.Ok L) {e a : Expr} {name what arg : Bytes} {test : Bytes → Bytes → Bool} {b p : Bytes} {t : Bool} {q₁ q₂ : List Ask} (hok : (Expr.call (.access e name) [a]).ok L false = true) (he : Ev w L ρ e (.str b) q₁)
    (ha : Ev w L ρ a (.str p) q₂) {k : Nat} {m : Ptm} (hk : ptmIdx .str name = some k) (hm : members[k]? = some m)
    (hrun : ∀ (R : Rec) (self c : Nat) (x : Cell) (buf size : Nat) (s : St), s.cells[self]? = some x → x.data = .str buf size → runPtm R m (some self) [c] s = strTest what arg test buf size c s)
    (ht : (if p.length ≤ b.length then test b p else false) = t) : Ev w L ρ (.call (.access e name) [a]) (.bool t) (q₁ ++ q₂) := by
  have hok' := hok
  unfold Expr.ok at hok'
  simp only [ok_and] at hok'
  rw [← List.append_nil (q₁ ++ q₂)]
  refine ev_member hW hok he (k := k) (p := m) hk hm (Arg := fun _ cs s => ∃ c, cs = [c] ∧ s.Was (.str p) c) (fun _ _ _ _ ⟨c, h1, h2⟩ hi _ _ => ⟨c, h1, hi.toPast.was h2⟩) (fun C P T X r0 st s hs hst => conv_arg ha hs hst)
    fun C P T X r0 st s a cs hs hv ha hcs ⟨c, hc, hcv⟩ => ?_
  subst hc
  have hv' := hv
  obtain ⟨buf, ⟨x, hx, hd⟩, _⟩ := hv'
  refine Conv.of_eq (fun n => hrun (interp w n) a c x buf _ s hx hd) ((conv_strTest (hs.wf.shows hv fun _ => hs.wf.live_P ha) (hs.wf.shows hcv fun _ => hs.wf.live_P (hcs c List.mem_cons_self)) ht hx hd).mono fun c' s' ⟨h1, h2⟩ => ⟨h1, h2.toStays, ?_⟩)
  rw [List.append_nil]
  exact hs.amb.idle h2

theorem ev_startswith (hW : w.Ok L) {e a : Expr} {b p : Bytes} {q₁ q₂ : List Ask} (hok : (Expr.call (.access e b!"startswith") [a]).ok L false = true) (he : Ev w L ρ e (.str b) q₁) (ha : Ev w L ρ a (.str p) q₂) :
    Ev w L ρ (.call (.access e b!"startswith") [a]) (.bool (p.isPrefixOf b)) (q₁ ++ q₂) := by
  refine ev_strTest (what := b!"startswith") (arg := b!"start") (test := startsWith) (k := 2) (m := .strStartswith) hW hok he ha rfl rfl (fun R self c x buf size s hx hd => ?_) ?_
  · unfold runPtm
    refine (bind_of_ok (a := self) (s1 := s) rfl).trans ?_
    rw [bind_of_ok ((getCell_ok_iff ..).2 ⟨hx, rfl⟩), hd]
  · rw [Bool.eq_iff_iff, List.isPrefixOf_iff_prefix]
    unfold startsWith
    split
    · rw [beq_iff_eq, List.prefix_iff_eq_take]
      exact eq_comm
    · rename_i hl
      exact ⟨fun h => (nomatch h), fun h => absurd h.length_le hl⟩

theorem ev_endswith (hW : w.Ok L) {e a : Expr} {b p : Bytes} {q₁ q₂ : List Ask} (hok : (Expr.call (.access e b!"endswith") [a]).ok L false = true) (he : Ev w L ρ e (.str b) q₁) (ha : Ev w L ρ a (.str p) q₂) :
    Ev w L ρ (.call (.access e b!"endswith") [a]) (.bool (p.isSuffixOf b)) (q₁ ++ q₂) := by
  refine ev_strTest (what := b!"endswith") (arg := b!"end") (test := endsWith) (k := 1) (m := .strEndswith) hW hok he ha rfl rfl (fun R self c x buf size s hx hd => ?_) ?_
  · unfold runPtm
    refine (bind_of_ok (a := self) (s1 := s) rfl).trans ?_
    rw [bind_of_ok ((getCell_ok_iff ..).2 ⟨hx, rfl⟩), hd]
  · rw [Bool.eq_iff_iff, List.isSuffixOf_iff_suffix]
    unfold endsWith
    split
    · rename_i hl
      rw [beq_iff_eq, List.suffix_iff_eq_drop, List.take_of_length_le (by rw [List.length_drop]; omega)]
      exact eq_comm
    · rename_i hl
      exact ⟨fun h => (nomatch h), fun h => absurd h.length_le hl⟩

end

end Bob.Fl
