import Verif.Lemmas.Install
/-!
# Properties of installing: C28, C29, C31 to C34, C66
-/

namespace Bob

/-- Neither path is in the other. -/
def Apart (a b : Path) : Prop := ¬ a <+: b ∧ ¬ b <+: a

theorem Apart.symm {a b : Path} (h : Apart a b) : Apart b a := ⟨h.2, h.1⟩

theorem apart_below {a b : Path} (h : Apart a b) (r : Path) : ¬ a <+: b ++ r ∧ ¬ b ++ r <+: a := by
  constructor
  · intro h'
    rcases List.prefix_or_prefix_of_prefix h' (List.prefix_append b r) with h1 | h1
    · exact h.1 h1
    · exact h.2 h1
  · intro h'
    exact h.2 ((List.prefix_append b r).trans h')

/-- Forgetting the time. -/
def Node.data : Node → Option Bytes
  | .dir _ => none
  | .file c _ => some c

theorem data_stamp (n : Node) (now : Nat) : (n.stamp now).data = n.data := by cases n <;> rfl

theorem mtime_stamp (n : Node) (now : Nat) : (n.stamp now).mtime = now := by cases n <;> rfl

/-- An entry of the install map: a source, and a destination in the prefix. -/
structure Ent where
  key : Bytes
  val : Bytes
  src : Path
  dst : Path

structure EntOk (e : InstEnv) (pre : Path) (x : Ent) : Prop where
  src : Denotes e.cwd x.key x.src
  dst : ∃ vs last, (∀ c ∈ vs, Plain c) ∧ Plain last ∧ x.val = joinP (vs ++ [last]) ∧ x.dst = pre ++ (vs ++ [last])

/-- A build product: not installed by `install_all`. -/
def Ent.product (e : InstEnv) (x : Ent) : Prop := isCookie e.absOut (pathStr x.src) = true

/-- The destination has what the source has, at every depth. -/
def SameData (t : Tree) (src : Path) (t' : Tree) (dst : Path) : Prop :=
  ∀ r, (t' (dst ++ r)).map Node.data = (t (src ++ r)).map Node.data

/-- The part of installing an entry before the copy. -/
theorem single_mkdirs {e : InstEnv} {pre : Path} {x : Ent} (hx : EntOk e pre x) (hpre : Denotes e.cwd e.pre pre) {t t1 : Tree} (hw : t.Wf) {now : Nat}
    (h : mkdirs e.deny e.cwd now (destBits x.val) e.pre t = (t1, true)) :
    ∃ vs last, (∀ c ∈ vs, Plain c) ∧ Plain last ∧ x.val = joinP (vs ++ [last]) ∧ x.dst = pre ++ (vs ++ [last]) ∧ Made now t t1 pre vs := by
  obtain ⟨vs, last, hv, hl, e1, e2⟩ := hx.dst
  refine ⟨vs, last, hv, hl, e1, e2, ?_⟩
  by_cases hvs : vs = []
  · subst hvs
    rw [e1, destBits_single hl] at h
    simp only [mkdirs] at h
    cases em : t.mkdir e.deny e.cwd now (e.pre ++ b!"/" ++ b!".") with
    | none => rw [em] at h; simp at h
    | some t2 =>
      rw [em] at h
      simp only [Prod.mk.injEq, and_true] at h
      obtain ⟨e3, _⟩ := mkdir_dot hw hpre em
      rw [← h, e3]
      exact made_nil hw pre
  · rw [e1, destBits_join hvs hv hl] at h
    exact mkdirs_made hv hw hpre h

theorem made_apart {now : Nat} {t t1 : Tree} {a : Path} {vs : List Bytes} (h : Made now t t1 a vs) (last : Bytes) (q : Path)
    (hq : ¬ q <+: a ++ (vs ++ [last])) : t1 q = t q := by
  have hq' : ¬ q <+: a ++ vs := fun hp => hq (by rw [← List.append_assoc]; exact hp.trans (List.prefix_append _ _))
  cases e : t q with
  | some n =>
    rcases h.kept q n e with h' | ⟨_, _, hp⟩
    · exact h'
    · exact (hq' hp).elim
  | none =>
    rcases h.new q e with h' | ⟨_, k, _, _, rfl⟩
    · exact h'
    · exact (hq' ((List.prefix_append_right_inj a).mpr (List.take_prefix _ _))).elim

theorem made_below {now : Nat} {t t1 : Tree} {a : Path} {vs : List Bytes} (h : Made now t t1 a vs) (last : Bytes) (r : Path) :
    t1 (a ++ (vs ++ [last]) ++ r) = t (a ++ (vs ++ [last]) ++ r) := by
  have hn : ∀ {s : Path}, a ++ (vs ++ [last]) ++ r <+: a ++ vs ++ s → s = [] → False := by
    intro s hp hs
    subst hs
    have := hp.length_le
    simp at this
    omega
  cases e : t (a ++ (vs ++ [last]) ++ r) with
  | some n =>
    rcases h.kept _ n e with h' | ⟨_, _, hp⟩
    · exact h'
    · exact (hn (s := []) (by simpa using hp) rfl).elim
  | none =>
    rcases h.new _ e with h' | ⟨_, k, _, hk, hq⟩
    · exact h'
    · have := congrArg List.length hq
      simp at this
      omega

theorem touch_not_dir {t : Tree} {p q : Path} {now : Nat} (h : q ≠ p) : t.touch p now q = t q := by simp [Tree.touch, h]

theorem dropLast_lt {p : Path} (h : p ≠ []) : p.dropLast.length < p.length := by
  have := List.length_pos_iff.mpr h
  simp; omega

theorem cp_wf {t t2 : Tree} (hw : t.Wf) {src dst : Path} (hd : dst ≠ []) (hdir : t.IsDir dst.dropLast)
    (hout : ∀ q, ¬ dst <+: q → (t.IsDir q → t2.IsDir q) ∧ (t2 q ≠ none → t q ≠ none))
    {f : Node → Node} (hf : ∀ n, (f n).isDir = n.isDir) (hin : ∀ r, t2 (dst ++ r) = (t (src ++ r)).map f) : t2.Wf := by
  have hpar : ¬ dst <+: dst.dropLast := by
    intro h
    have := h.length_le
    have := dropLast_lt hd
    omega
  refine ⟨?_, ?_⟩
  · refine (hout [] ?_).1 hw.root
    intro h
    exact hd (List.prefix_nil.mp h)
  · intro p c h
    by_cases hp : dst <+: p
    · obtain ⟨r, rfl⟩ := hp
      rw [List.append_assoc, hin] at h
      have h1 : t (src ++ r ++ [c]) ≠ none := by
        intro e; rw [← List.append_assoc, e] at h; simp at h
      obtain ⟨m, hm⟩ := hw.parent _ _ h1
      have := hin r
      rw [hm] at this
      have hfd := hf (.dir m)
      cases ef : f (.dir m) with
      | dir m' => exact ⟨m', by rw [this]; simp [ef]⟩
      | file _ _ => rw [ef] at hfd; simp [Node.isDir] at hfd
    · by_cases hpc : dst <+: p ++ [c]
      · have : dst = p ++ [c] := by
          rcases List.prefix_concat_iff.mp (by simpa using hpc) with h1 | h1
          · exact h1
          · exact (hp h1).elim
        subst this
        rw [show (p ++ [c]).dropLast = p by simp] at hdir hpar
        exact (hout p hp).1 hdir
      · exact (hout p hp).1 (hw.parent p c ((hout _ hpc).2 h))

/-- What installing one entry does. -/
theorem single_copied {e : InstEnv} {pre : Path} {x : Ent} (hx : EntOk e pre x) (hpre : Denotes e.cwd e.pre pre) {t t2 : Tree} (hw : t.Wf) {now : Nat}
    (hap : Apart x.src x.dst) (hdir : ∀ c m, t x.src = some (.file c m) → ¬ t.IsDir x.dst)
    {b : Bool} (h : installSingle e x.key x.val b now t = .copied t2) :
    (∃ n, t x.src = some n) ∧ (x.product e ↔ b = true) ∧ (∀ r, t2 (x.dst ++ r) = (t (x.src ++ r)).map (Node.stamp now)) ∧
    (∀ q, Apart q x.dst → t2 q = t q) ∧ t2.Wf ∧
    ∃ t1 vs last, (∀ c ∈ vs, Plain c) ∧ x.dst = pre ++ (vs ++ [last]) ∧ Made now t t1 pre vs ∧
      ∀ q, ¬ x.dst <+: q → t2 q = t1 q ∨ (q = x.dst.dropLast ∧ t1.IsDir q ∧ t2.IsDir q) := by
  have hk := denotes_cstr hx.src
  have hval : cstr x.val = x.val := by
    obtain ⟨vs, last, hv, hl, e1, _⟩ := hx.dst
    rw [e1]
    exact cstr_eq_self (nul_joinP (fun c hc => by
      rcases List.mem_append.mp hc with hc | hc
      · exact hv c hc
      · simp only [List.mem_singleton] at hc; subst hc; exact hl))
  simp only [installSingle, hk, hval] at h
  cases es : t.stat e.cwd x.key with
  | error => rw [es] at h; simp at h
  | ok v =>
    obtain ⟨src, n⟩ := v
    obtain ⟨rfl, hn⟩ := (stat_denotes hw hx.src).1 _ _ es
    rw [es] at h
    simp only at h
    split at h
    · cases h
    · split at h
      · cases h
      · rename_i hc
        cases em : mkdirs e.deny e.cwd now (destBits x.val) e.pre t with
        | mk t1 ok =>
          rw [em] at h
          cases ok with
          | false => simp at h
          | true =>
            simp only at h
            obtain ⟨vs, last, hv, hl, e1, e2, hm⟩ := single_mkdirs hx hpre hw em
            have hvl : ∀ c ∈ vs ++ [last], Plain c := by
              intro c hc
              rcases List.mem_append.mp hc with hc | hc
              · exact hv c hc
              · simp only [List.mem_singleton] at hc; subst hc; exact hl
            have hden : Denotes e.cwd (e.pre ++ b!"/" ++ x.val) x.dst := by
              rw [e1, e2]; exact denotes_append hpre (by simp) hvl
            have hsrc : ∀ r, t1 (x.src ++ r) = t (x.src ++ r) := by
              intro r
              refine made_apart hm last _ ?_
              rw [← e2]
              exact (apart_below hap.symm r).2
            have hbelow : ∀ r, t1 (x.dst ++ r) = t (x.dst ++ r) := by
              intro r; rw [e2]; exact made_below hm last r
            split at h
            · cases h
            · cases h
            · cases ec : copyNode e.deny t1 e.cwd x.src n (e.pre ++ b!"/" ++ x.val) now with
              | mk t3 ok =>
                rw [ec] at h
                cases ok with
                | false => simp at h
                | true =>
                  simp only [SingleRes.copied.injEq] at h
                  subst h
                  unfold copyNode at ec
                  cases er : t1.resolve e.cwd (e.pre ++ b!"/" ++ x.val) with
                  | error => rw [er] at ec; simp at ec
                  | ok q =>
                    obtain ⟨rfl, hpd⟩ := (resolve_denotes hm.wf hden).1 q er
                    rw [er] at ec
                    simp only at ec
                    have hdne : x.dst ≠ [] := denotes_ne_nil hden
                    have hpne : ∀ r, x.dst ++ r ≠ x.dst.dropLast := by
                      intro r hh
                      have := congrArg List.length hh
                      have := dropLast_lt hdne
                      simp at *; omega
                    have hfar : ∀ q, Apart q x.dst → t1 q = t q := fun q hq => made_apart hm last q (by rw [← e2]; exact hq.1)
                    have hfard : ∀ q, Apart q x.dst → q ≠ x.dst.dropLast := fun q hq hh => hq.1 (hh ▸ List.dropLast_prefix _)
                    refine ⟨⟨n, hn⟩, by unfold Ent.product; cases b <;> simpa using hc, ?_⟩
                    cases ed : e.deny.copy x.src x.dst with
                    | some junk => rw [ed] at ec; simp at ec
                    | none =>
                      rw [ed] at ec
                      simp only at ec
                      have hst : ∀ m : Node, (m.stamp now).isDir = m.isDir := by intro m; cases m <;> rfl
                      cases n with
                      | file c m =>
                        simp only at ec
                        have hnd : ¬ t1.IsDir x.dst := by
                          have := hbelow []
                          simp only [List.append_nil] at this
                          unfold Tree.IsDir
                          rw [this]
                          exact hdir c m hn
                        have hsf : ∀ r, r ≠ [] → t (x.src ++ r) = none := fun r hr =>
                          wf_below_file hw (fun ⟨m', hm'⟩ => by rw [hn] at hm'; cases hm') r hr
                        have hdf : ∀ r, r ≠ [] → t1 (x.dst ++ r) = none := fun r hr => wf_below_file hm.wf hnd r hr
                        have main : ∀ t3 : Tree, (∀ q, t3 q = if q = x.dst then some (.file c now) else
                              if q = x.dst.dropLast then t3 q else t1 q) → (∀ mt, t1 x.dst.dropLast = some (.dir mt) → t3.IsDir x.dst.dropLast) →
                              (∀ r, t3 (x.dst ++ r) = (t (x.src ++ r)).map (Node.stamp now)) ∧ (∀ q, Apart q x.dst → t3 q = t q) ∧ t3.Wf ∧
                              ∃ t1 vs last, (∀ c ∈ vs, Plain c) ∧ x.dst = pre ++ (vs ++ [last]) ∧ Made now t t1 pre vs ∧
                                ∀ q, ¬ x.dst <+: q → t3 q = t1 q ∨ (q = x.dst.dropLast ∧ t1.IsDir q ∧ t3.IsDir q) := by
                          intro t3 h3 h4
                          have hin : ∀ r, t3 (x.dst ++ r) = (t (x.src ++ r)).map (Node.stamp now) := by
                            intro r
                            by_cases hr : r = []
                            · subst hr
                              simp only [List.append_nil]
                              rw [h3, if_pos rfl, hn]; rfl
                            · rw [h3, if_neg (by simpa using hr), if_neg (hpne r), hdf r hr, hsf r hr]; rfl
                          have hlast : ∀ q, ¬ x.dst <+: q → t3 q = t1 q ∨ (q = x.dst.dropLast ∧ t1.IsDir q ∧ t3.IsDir q) := by
                            intro q hq
                            have hqd : ¬ q = x.dst := fun hh => hq (by rw [hh]; exact List.prefix_refl _)
                            by_cases hqp : q = x.dst.dropLast
                            · obtain ⟨mt, hmt⟩ := hpd
                              exact Or.inr ⟨hqp, by rw [hqp]; exact ⟨mt, hmt⟩, by rw [hqp]; exact h4 mt hmt⟩
                            · have := h3 q
                              rw [if_neg hqd, if_neg hqp] at this
                              exact Or.inl this
                          refine ⟨hin, ?_, ?_, t1, vs, last, hv, e2, hm, hlast⟩
                          · intro q hq
                            rw [h3, if_neg (fun hh : q = x.dst => hq.1 (by rw [hh]; exact List.prefix_refl _)), if_neg (hfard q hq), hfar q hq]
                          · refine cp_wf (src := x.src) (f := Node.stamp now) hm.wf hdne hpd ?_ hst (fun r => by rw [hsrc r]; exact hin r)
                            intro q hq
                            have hqd : q ≠ x.dst := fun (hh : q = x.dst) => hq (by rw [hh]; exact List.prefix_refl _)
                            by_cases hqp : q = x.dst.dropLast
                            · subst hqp
                              refine ⟨fun ⟨mt, hmt⟩ => h4 mt hmt, fun _ => hpd.ne⟩
                            · have := h3 q
                              rw [if_neg hqd, if_neg hqp] at this
                              unfold Tree.IsDir
                              rw [this]
                              exact ⟨id, id⟩
                        unfold cpFile at ec
                        cases ex : t1 x.dst with
                        | none =>
                          simp only [ex, Prod.mk.injEq, and_true] at ec
                          subst ec
                          apply main
                          · intro q
                            by_cases h1 : q = x.dst
                            · subst h1
                              rw [touch_not_dir (by simpa using hpne []), if_pos rfl]; simp [Tree.set]
                            · by_cases h2 : q = x.dst.dropLast
                              · rw [if_neg h1, if_pos h2]
                              · rw [touch_not_dir h2, if_neg h1, if_neg h2]; simp [Tree.set, h1]
                          · intro mt hmt
                            refine ⟨now, ?_⟩
                            have : x.dst.dropLast ≠ x.dst := fun hh => hpne [] (by simpa using hh.symm)
                            simp [Tree.touch, Tree.set, this, hmt]
                        | some nd =>
                          cases nd with
                          | dir md => exact (hnd ⟨md, ex⟩).elim
                          | file c2 m2 =>
                            simp only [ex] at ec
                            have hne : ¬ x.dst = x.src := fun hh => hap.1 (hh ▸ List.prefix_refl _)
                            rw [if_neg hne] at ec
                            simp only [Prod.mk.injEq, and_true] at ec
                            subst ec
                            apply main
                            · intro q
                              by_cases h1 : q = x.dst
                              · rw [if_pos h1]; simp [Tree.set, h1]
                              · rw [if_neg h1]; simp [Tree.set, h1]
                            · intro mt hmt
                              have : x.dst.dropLast ≠ x.dst := fun hh => hpne [] (by simpa using hh.symm)
                              exact ⟨mt, by simp [Tree.set, this, hmt]⟩
                      | dir m =>
                        simp only at ec
                        have hno : ¬ (x.src <+: x.dst ∨ x.dst <+: x.src) := fun hh => hh.elim hap.1 hap.2
                        rw [cpDir, if_neg hno] at ec
                        simp only [Prod.mk.injEq, and_true] at ec
                        have hin : ∀ r, t3 (x.dst ++ r) = (t (x.src ++ r)).map (Node.stamp now) := by
                          intro r
                          rw [← ec, touch_not_dir (hpne r)]
                          simp [hsrc r]
                        have houtq : ∀ q, ¬ x.dst <+: q → q ≠ x.dst.dropLast → t3 q = t1 q := by
                          intro q h1 h2
                          rw [← ec, touch_not_dir h2, if_neg h1]
                        have hlast : ∀ q, ¬ x.dst <+: q → t3 q = t1 q ∨ (q = x.dst.dropLast ∧ t1.IsDir q ∧ t3.IsDir q) := by
                          intro q hq
                          by_cases hqp : q = x.dst.dropLast
                          · obtain ⟨mt, hmt⟩ := hpd
                            refine Or.inr ⟨hqp, by rw [hqp]; exact ⟨mt, hmt⟩, now, ?_⟩
                            rw [hqp] at hq ⊢
                            rw [← ec]
                            simp [Tree.touch, hq, hmt]
                          · exact Or.inl (houtq q hq hqp)
                        refine ⟨hin, fun q hq => ?_, ?_, t1, vs, last, hv, e2, hm, hlast⟩
                        · rw [houtq q hq.2 (hfard q hq), hfar q hq]
                        · refine cp_wf (src := x.src) (f := Node.stamp now) hm.wf hdne hpd ?_ hst (fun r => by rw [hsrc r]; exact hin r)
                          intro q hq
                          by_cases hqp : q = x.dst.dropLast
                          · subst hqp
                            refine ⟨fun ⟨mt, hmt⟩ => ⟨now, ?_⟩, fun _ => hpd.ne⟩
                            rw [← ec]
                            simp [Tree.touch, hq, hmt]
                          · unfold Tree.IsDir
                            rw [houtq q hq hqp]
                            exact ⟨id, id⟩


/-- An entry is skipped when the destination is at least as new; then nothing changes at all. -/
theorem single_already {e : InstEnv} {pre : Path} {x : Ent} (hx : EntOk e pre x) (hpre : Denotes e.cwd e.pre pre) {t t2 : Tree} (hw : t.Wf) {now : Nat}
    (hap : Apart x.src x.dst) {b : Bool} (h : installSingle e x.key x.val b now t = .already t2) :
    t2 = t ∧ (x.product e ↔ b = true) ∧ ∃ n m, t x.src = some n ∧ t x.dst = some m ∧ n.mtime ≤ m.mtime := by
  have hk := denotes_cstr hx.src
  have hval : cstr x.val = x.val := by
    obtain ⟨vs, last, hv, hl, e1, _⟩ := hx.dst
    rw [e1]
    exact cstr_eq_self (nul_joinP (fun c hc => by
      rcases List.mem_append.mp hc with hc | hc
      · exact hv c hc
      · simp only [List.mem_singleton] at hc; subst hc; exact hl))
  simp only [installSingle, hk, hval] at h
  cases es : t.stat e.cwd x.key with
  | error => rw [es] at h; simp at h
  | ok v =>
    obtain ⟨src, n⟩ := v
    obtain ⟨rfl, hn⟩ := (stat_denotes hw hx.src).1 _ _ es
    rw [es] at h
    simp only at h
    split at h
    · cases h
    · split at h
      · cases h
      · rename_i hc
        cases em : mkdirs e.deny e.cwd now (destBits x.val) e.pre t with
        | mk t1 ok =>
          rw [em] at h
          cases ok with
          | false => simp at h
          | true =>
            simp only at h
            obtain ⟨vs, last, hv, hl, e1, e2, hm⟩ := single_mkdirs hx hpre hw em
            have hvl : ∀ c ∈ vs ++ [last], Plain c := by
              intro c hc
              rcases List.mem_append.mp hc with hc | hc
              · exact hv c hc
              · simp only [List.mem_singleton] at hc; subst hc; exact hl
            have hden : Denotes e.cwd (e.pre ++ b!"/" ++ x.val) x.dst := by
              rw [e1, e2]; exact denotes_append hpre (by simp) hvl
            have hsrc : t1 x.src = t x.src := made_apart hm last _ (by rw [← e2]; exact hap.1)
            have hdst : t1 x.dst = t x.dst := by
              have := made_below hm last []
              rw [← e2] at this; simpa using this
            split at h
            · cases h
            · rename_i hfr
              injection h with h
              subst h
              -- the destination exists
              cases ed : t x.dst with
              | none =>
                rw [ed] at hdst
                unfold frugalMtime Tree.statRes at hfr
                cases es2 : t1.stat e.cwd (e.pre ++ b!"/" ++ x.val) with
                | error er => cases er <;> simp only [es2] at hfr <;> simp at hfr
                | ok v2 =>
                  obtain ⟨q, m⟩ := v2
                  have := ((stat_denotes hm.wf hden).1 _ _ es2).2
                  rw [hdst] at this; cases this
              | some m =>
                rw [ed] at hdst
                have h1 := (stat_denotes hm.wf hden).2 m hdst
                have h2 := (stat_denotes hm.wf hx.src).2 n (hsrc.trans hn)
                have hle : n.mtime ≤ m.mtime := by
                  simp only [frugalMtime, Tree.statRes, h1, mtimeLoop, h2] at hfr
                  split at hfr
                  · cases hfr
                  · omega
                refine ⟨hm.idle (fun k hk1 hk2 => ?_), by unfold Ent.product; cases b <;> simpa using hc, n, m, hn, rfl, hle⟩
                have hd := wf_up hw (pre ++ vs.take k) (vs.drop k ++ [last]) (by simp) (by
                  rw [List.append_assoc, ← List.append_assoc (vs.take k), List.take_append_drop, ← e2, ed]; simp)
                exact hd.ne
            · cases ec : copyNode e.deny t1 e.cwd x.src n (e.pre ++ b!"/" ++ x.val) now with
              | mk t3 ok =>
                rw [ec] at h
                cases ok <;> simp at h

/-- And when the destination is at least as new, the entry is skipped. -/
theorem single_skips_any {e : InstEnv} {pre : Path} {x : Ent} (hx : EntOk e pre x) (hpre : Denotes e.cwd e.pre pre) {t : Tree} (hw : t.Wf) (now : Nat)
    (b : Bool) (hb : isCookie e.absOut (pathStr x.src) = b) {n m : Node} (hn : t x.src = some n) (hm : t x.dst = some m) (hle : n.mtime ≤ m.mtime) :
    installSingle e x.key x.val b now t = .already t := by
  have hk := denotes_cstr hx.src
  obtain ⟨vs, last, hv, hl, e1, e2⟩ := hx.dst
  have hvl : ∀ c ∈ vs ++ [last], Plain c := by
    intro c hc
    rcases List.mem_append.mp hc with hc | hc
    · exact hv c hc
    · simp only [List.mem_singleton] at hc; subst hc; exact hl
  have hval : cstr x.val = x.val := by rw [e1]; exact cstr_eq_self (nul_joinP hvl)
  have hden : Denotes e.cwd (e.pre ++ b!"/" ++ x.val) x.dst := by
    rw [e1, e2]; exact denotes_append hpre (by simp) hvl
  have hst := (stat_denotes hw hx.src).2 n hn
  have hst2 := (stat_denotes hw hden).2 m hm
  have hdirs : ∀ k, k ≤ vs.length → t.IsDir (pre ++ vs.take k) := by
    intro k hk2
    exact wf_up hw (pre ++ vs.take k) (vs.drop k ++ [last]) (by simp) (by
      rw [List.append_assoc, ← List.append_assoc (vs.take k), List.take_append_drop, ← e2, hm]; simp)
  have hmk : mkdirs e.deny e.cwd now (destBits x.val) e.pre t = (t, true) := by
    by_cases hvs : vs = []
    · subst hvs
      rw [e1, destBits_single hl]
      have hd : t.IsDir pre := by simpa using hdirs 0 (by simp)
      simp only [mkdirs, mkdir_dot_ok hw hpre hd]
    · rw [e1, destBits_join hvs hv hl]
      exact mkdirs_exist hv hw hpre (fun k _ hk2 => (hdirs k hk2).ne)
  have hfr : frugalMtime (t.statRes e.cwd) [x.key] (e.pre ++ b!"/" ++ x.val) = some false := by
    have : ¬ n.mtime > m.mtime := by omega
    simp only [frugalMtime, Tree.statRes, hst2, mtimeLoop, hst, this, if_false]
  simp only [installSingle, hk, hval, hst, hb, hmk, hfr]
  cases b <;> rfl
where
  mkdir_dot_ok {d : Deny} {cwd : Path} {now : Nat} {accum : Bytes} {a : Path} {t : Tree} (hw : t.Wf) (ha : Denotes cwd accum a) (hd : t.IsDir a) :
      t.mkdir d cwd now (accum ++ b!"/" ++ b!".") = some t := by
    have hr := resolve_dot hw ha hd
    obtain ⟨m, hm⟩ := hd
    simp only [Tree.mkdir, hr, hm]

theorem single_skips {e : InstEnv} {pre : Path} {x : Ent} (hx : EntOk e pre x) (hpre : Denotes e.cwd e.pre pre) {t : Tree} (hw : t.Wf) (now : Nat)
    (hnp : ¬ x.product e) {n m : Node} (hn : t x.src = some n) (hm : t x.dst = some m) (hle : n.mtime ≤ m.mtime) :
    installSingle e x.key x.val false now t = .already t :=
  single_skips_any hx hpre hw now false (by simpa [Ent.product] using hnp) hn hm hle


/-! ## All entries -/

/-- The entries do not get in each other's way: no destination is in another one, and no source is in a destination or the other way round. -/
structure EntsOk (e : InstEnv) (pre : Path) (es : List (Ent × Nat)) : Prop where
  ok : ∀ x ∈ es, EntOk e pre x.1
  srcs : ∀ x ∈ es, ∀ y ∈ es, Apart x.1.src y.1.dst
  dsts : es.Pairwise fun x y => Apart x.1.dst y.1.dst

/-- A file is not installed where there is a directory. -/
def NoClash (t : Tree) (es : List (Ent × Nat)) : Prop := ∀ x ∈ es, ∀ c m, t x.1.src = some (.file c m) → ¬ t.IsDir x.1.dst

def asEntries (es : List (Ent × Nat)) : List ((Bytes × Bytes) × Nat) := es.map fun x => ((x.1.key, x.1.val), x.2)

theorem EntsOk.tail {e : InstEnv} {pre : Path} {x : Ent × Nat} {es : List (Ent × Nat)} (h : EntsOk e pre (x :: es)) : EntsOk e pre es :=
  ⟨fun y hy => h.ok y (by simp [hy]), fun y hy z hz => h.srcs y (by simp [hy]) z (by simp [hz]), (List.pairwise_cons.mp h.dsts).2⟩

/-- One entry after another. -/
theorem all_cons {e : InstEnv} {pre : Path} {x : Ent × Nat} {es : List (Ent × Nat)} (hes : EntsOk e pre (x :: es)) (hpre : Denotes e.cwd e.pre pre)
    {t t' : Tree} (hw : t.Wf) (hnc : NoClash t (x :: es)) {acc copied : List (Bytes × Bytes)} (h : installAll e (asEntries (x :: es)) t acc = .ok t' copied) :
    ∃ t1 acc1, installAll e (asEntries es) t1 acc1 = .ok t' copied ∧ t1.Wf ∧ (∀ q, Apart q x.1.dst → t1 q = t q) ∧
      ((x.1.product e ∧ t1 = t ∧ ∃ n, t x.1.src = some n) ∨
       (¬ x.1.product e ∧ t1 = t ∧ ∃ n m, t x.1.src = some n ∧ t x.1.dst = some m ∧ n.mtime ≤ m.mtime) ∨
       (¬ x.1.product e ∧ (∃ n, t x.1.src = some n) ∧ ∀ r, t1 (x.1.dst ++ r) = (t (x.1.src ++ r)).map (Node.stamp x.2))) := by
  have hx := hes.ok x (by simp)
  have hap := hes.srcs x (by simp) x (by simp)
  simp only [asEntries, List.map_cons, installAll] at h
  cases er : installSingle e x.1.key x.1.val false x.2 t with
  | failed t1 => rw [er] at h; cases h
  | abort => rw [er] at h; cases h
  | product =>
    rw [er] at h
    suffices hs : x.1.product e ∧ ∃ n, t x.1.src = some n from ⟨t, acc, h, hw, fun _ _ => rfl, Or.inl ⟨hs.1, rfl, hs.2⟩⟩
    have hk := denotes_cstr hx.src
    simp only [installSingle, hk] at er
    cases es' : t.stat e.cwd x.1.key with
    | error => rw [es'] at er; simp at er
    | ok v =>
      obtain ⟨src, n⟩ := v
      obtain ⟨rfl, hn⟩ := (stat_denotes hw hx.src).1 _ _ es'
      rw [es'] at er
      simp only [Bool.not_false, Bool.and_true] at er
      split at er
      · rename_i hc; exact ⟨hc, n, hn⟩
      · split at er
        · cases er
        · split at er
          · cases er
          · split at er
            · cases er
            · cases er
            · split at er <;> cases er
  | already t1 =>
    rw [er] at h
    obtain ⟨rfl, hnp, hle⟩ := single_already hx hpre hw hap er
    exact ⟨t1, acc, h, hw, fun _ _ => rfl, Or.inr (Or.inl ⟨fun hp => (nomatch hnp.1 hp), rfl, hle⟩)⟩
  | copied t1 =>
    rw [er] at h
    obtain ⟨hn, hnp, hin, hout, hw1, _⟩ := single_copied hx hpre hw hap (hnc x (by simp)) er
    exact ⟨t1, _, h, hw1, hout, Or.inr (Or.inr ⟨fun hp => (nomatch hnp.1 hp), hn, hin⟩)⟩

/-- **C30**, for one product and the file system: installing a product that exists fails, or copies it to its destination, or leaves everything as it is when
the destination is at least as new. -/
theorem C30_product_copied_partial {e : InstEnv} {pre : Path} {x : Ent} (hx : EntOk e pre x) (hpre : Denotes e.cwd e.pre pre) {t : Tree} (hw : t.Wf) (now : Nat)
    (hap : Apart x.src x.dst) (hdir : ∀ c m, t x.src = some (.file c m) → ¬ t.IsDir x.dst) (hp : x.product e) {n : Node} (hn : t x.src = some n) :
    (∃ t2, installSingle e x.key x.val true now t = .failed t2) ∨
    (∃ t2, installSingle e x.key x.val true now t = .copied t2 ∧ (∀ r, t2 (x.dst ++ r) = (t (x.src ++ r)).map (Node.stamp now)) ∧ ∀ q, Apart q x.dst → t2 q = t q) ∨
    (installSingle e x.key x.val true now t = .already t ∧ ∃ m, t x.dst = some m ∧ n.mtime ≤ m.mtime) := by
  cases er : installSingle e x.key x.val true now t with
  | failed t2 => exact Or.inl ⟨t2, rfl⟩
  | copied t2 =>
    obtain ⟨_, _, hin, hout, _⟩ := single_copied hx hpre hw hap hdir er
    exact Or.inr (Or.inl ⟨t2, rfl, hin, hout⟩)
  | already t2 =>
    obtain ⟨rfl, _, n', m, hn', hm, hle⟩ := single_already hx hpre hw hap er
    rw [hn] at hn'
    cases hn'
    exact Or.inr (Or.inr ⟨rfl, m, hm, hle⟩)
  | product =>
    exfalso
    simp only [installSingle] at er
    split at er
    · cases er
    · split at er
      · rename_i h
        simp at h
      · split at er
        · cases er
        · split at er
          · cases er
          · split at er
            · cases er
            · cases er
            · split at er <;> cases er
  | abort =>
    exfalso
    simp only [installSingle, denotes_cstr hx.src, (stat_denotes hw hx.src).2 n hn] at er
    split at er
    · cases er
    · split at er
      · rename_i h
        exact absurd hp (by unfold Ent.product; simpa using h)
      · split at er
        · cases er
        · split at er
          · cases er
          · cases er
          · split at er <;> cases er

/-- The rest of the entries starts with the same sources and destinations. -/
theorem rest_same {e : InstEnv} {pre : Path} {x : Ent × Nat} {es : List (Ent × Nat)} (hes : EntsOk e pre (x :: es)) {t t1 : Tree}
    (hout : ∀ q, Apart q x.1.dst → t1 q = t q) :
    ∀ y ∈ es, (∀ r, t1 (y.1.src ++ r) = t (y.1.src ++ r)) ∧ (∀ r, t1 (y.1.dst ++ r) = t (y.1.dst ++ r)) := by
  intro y hy
  constructor
  · intro r
    have := apart_below (hes.srcs y (by simp [hy]) x (by simp)).symm r
    exact hout _ ⟨this.2, this.1⟩
  · intro r
    have h1 := (List.pairwise_cons.mp hes.dsts).1 y hy
    have := apart_below h1 r
    exact hout _ ⟨this.2, this.1⟩

theorem rest_noClash {e : InstEnv} {pre : Path} {x : Ent × Nat} {es : List (Ent × Nat)} (hes : EntsOk e pre (x :: es)) {t t1 : Tree}
    (hout : ∀ q, Apart q x.1.dst → t1 q = t q) (hnc : NoClash t (x :: es)) : NoClash t1 es := by
  intro y hy c m hc
  have h1 := (rest_same hes hout y hy).1 []
  have h2 := (rest_same hes hout y hy).2 []
  simp only [List.append_nil] at h1 h2
  unfold Tree.IsDir
  rw [h2]
  rw [h1] at hc
  exact hnc y (by simp [hy]) c m hc

theorem all_frame {e : InstEnv} {pre : Path} {es : List (Ent × Nat)} (hes : EntsOk e pre es) (hpre : Denotes e.cwd e.pre pre)
    {t t' : Tree} (hw : t.Wf) (hnc : NoClash t es) {acc copied : List (Bytes × Bytes)} (h : installAll e (asEntries es) t acc = .ok t' copied) :
    t'.Wf ∧ ∀ q, (∀ x ∈ es, Apart q x.1.dst) → t' q = t q := by
  induction es generalizing t acc with
  | nil =>
    simp only [asEntries, List.map_nil, installAll, AllRes.ok.injEq] at h
    rw [← h.1]
    exact ⟨hw, fun _ _ => rfl⟩
  | cons x es ih =>
    obtain ⟨t1, acc1, h1, hw1, hout, _⟩ := all_cons hes hpre hw hnc h
    obtain ⟨hw', hf⟩ := ih hes.tail hw1 (rest_noClash hes hout hnc) h1
    exact ⟨hw', fun q hq => (hf q (fun y hy => hq y (by simp [hy]))).trans (hout q (hq x (by simp)))⟩

/-- What has become of an entry: installed, or skipped because its destination was at least as new. -/
def Settled29 (t t' : Tree) (x : Ent × Nat) : Prop :=
  (∃ n, t x.1.src = some n) ∧ (∀ r, t' (x.1.src ++ r) = t (x.1.src ++ r)) ∧
  ((∀ r, t' (x.1.dst ++ r) = (t (x.1.src ++ r)).map (Node.stamp x.2)) ∨
   ((∀ r, t' (x.1.dst ++ r) = t (x.1.dst ++ r)) ∧ ∃ n m, t x.1.src = some n ∧ t x.1.dst = some m ∧ n.mtime ≤ m.mtime))

theorem all_settled {e : InstEnv} {pre : Path} {es : List (Ent × Nat)} (hes : EntsOk e pre es) (hpre : Denotes e.cwd e.pre pre)
    {t t' : Tree} (hw : t.Wf) (hnc : NoClash t es) {acc copied : List (Bytes × Bytes)} (h : installAll e (asEntries es) t acc = .ok t' copied) :
    ∀ x ∈ es, ¬ x.1.product e → Settled29 t t' x := by
  induction es generalizing t acc with
  | nil => intro x hx; simp at hx
  | cons x es ih =>
    obtain ⟨t1, acc1, h1, hw1, hout, hcase⟩ := all_cons hes hpre hw hnc h
    have hnc1 := rest_noClash hes hout hnc
    obtain ⟨_, hf⟩ := all_frame hes.tail hpre hw1 hnc1 h1
    intro y hy hnp
    rcases List.mem_cons.mp hy with rfl | hy
    · have hd : ∀ r, t' (y.1.dst ++ r) = t1 (y.1.dst ++ r) := fun r => hf _ (fun z hz => by
        have := apart_below ((List.pairwise_cons.mp hes.dsts).1 z hz).symm r
        exact ⟨this.2, this.1⟩)
      have hs : ∀ r, t' (y.1.src ++ r) = t (y.1.src ++ r) := fun r => by
        have h2 := apart_below (hes.srcs y (by simp) y (by simp)).symm r
        rw [hf _ (fun z hz => by
          have := apart_below (hes.srcs y (by simp) z (by simp [hz])).symm r
          exact ⟨this.2, this.1⟩)]
        exact hout _ ⟨h2.2, h2.1⟩
      rcases hcase with ⟨hp, _, _⟩ | ⟨_, rfl, n, m, hn, hm, hle⟩ | ⟨_, hn, hin⟩
      · exact (hnp hp).elim
      · exact ⟨⟨n, hn⟩, hs, Or.inr ⟨hd, n, m, hn, hm, hle⟩⟩
      · exact ⟨hn, hs, Or.inl (fun r => (hd r).trans (hin r))⟩
    · obtain ⟨⟨n, hn⟩, hs, hset⟩ := ih hes.tail hw1 hnc1 h1 y hy hnp
      obtain ⟨e1, e2⟩ := rest_same hes hout y hy
      have e10 := e1 []
      have e20 := e2 []
      simp only [List.append_nil] at e10 e20
      refine ⟨⟨n, by rw [← e10]; exact hn⟩, fun r => (hs r).trans (e1 r), ?_⟩
      rcases hset with hset | ⟨hset, n, m, hn, hm, hle⟩
      · exact Or.inl (fun r => by rw [hset r, e1 r])
      · exact Or.inr ⟨fun r => (hset r).trans (e2 r), n, m, by rw [← e10]; exact hn, by rw [← e20]; exact hm, hle⟩

/-- A successful installation has found all sources. -/
theorem all_found {e : InstEnv} {pre : Path} {es : List (Ent × Nat)} (hes : EntsOk e pre es) (hpre : Denotes e.cwd e.pre pre)
    {t t' : Tree} (hw : t.Wf) (hnc : NoClash t es) {acc copied : List (Bytes × Bytes)} (h : installAll e (asEntries es) t acc = .ok t' copied) :
    ∀ x ∈ es, ∃ n, t x.1.src = some n := by
  induction es generalizing t acc with
  | nil => intro x hx; simp at hx
  | cons x es ih =>
    obtain ⟨t1, acc1, h1, hw1, hout, hcase⟩ := all_cons hes hpre hw hnc h
    intro y hy
    rcases List.mem_cons.mp hy with rfl | hy
    · rcases hcase with ⟨_, _, hn⟩ | ⟨_, _, n, m, hn, _⟩ | ⟨_, hn, _⟩
      · exact hn
      · exact ⟨n, hn⟩
      · exact hn
    · obtain ⟨n, hn⟩ := ih hes.tail hw1 (rest_noClash hes hout hnc) h1 y hy
      have := (rest_same hes hout y hy).1 []
      simp only [List.append_nil] at this
      exact ⟨n, by rw [← this]; exact hn⟩

/-! ## C29 -/

/-- **C29.** After a successful installation, every entry that is not a build product has at its destination what the source has, at every
depth, unless the destination existed and was at least as new. -/
theorem C29_install_copies {e : InstEnv} {pre : Path} {es : List (Ent × Nat)} (hes : EntsOk e pre es) (hpre : Denotes e.cwd e.pre pre)
    {t t' : Tree} (hw : t.Wf) (hnc : NoClash t es) {copied : List (Bytes × Bytes)} (h : installAll e (asEntries es) t [] = .ok t' copied)
    (x : Ent × Nat) (hx : x ∈ es) (hnp : ¬ x.1.product e) :
    SameData t x.1.src t' x.1.dst ∧ t' x.1.dst ≠ none ∨
    ((∀ r, t' (x.1.dst ++ r) = t (x.1.dst ++ r)) ∧ ∃ n m, t x.1.src = some n ∧ t x.1.dst = some m ∧ n.mtime ≤ m.mtime) := by
  obtain ⟨⟨n, hn⟩, _, h | h⟩ := all_settled hes hpre hw hnc h x hx hnp
  · left
    refine ⟨fun r => ?_, ?_⟩
    · rw [h r, Option.map_map]
      congr 1
      funext n
      exact data_stamp n _
    · have := h []
      simp only [List.append_nil] at this
      rw [this, hn]; simp
  · exact Or.inr h

/-- **C29.** Nothing but the destinations and the directories leading to them changes. -/
theorem C29_install_changes_nothing_else {e : InstEnv} {pre : Path} {es : List (Ent × Nat)} (hes : EntsOk e pre es) (hpre : Denotes e.cwd e.pre pre)
    {t t' : Tree} (hw : t.Wf) (hnc : NoClash t es) {copied : List (Bytes × Bytes)} (h : installAll e (asEntries es) t [] = .ok t' copied)
    (q : Path) (hq : ∀ x ∈ es, ¬ q <+: x.1.dst ∧ ¬ x.1.dst <+: q) : t' q = t q := (all_frame hes hpre hw hnc h).2 q hq

/-! ## C32 -/

/-- **C32.** Installing again copies nothing and changes nothing. -/
theorem C32_install_twice {e : InstEnv} {pre : Path} {es : List (Ent × Nat)} (hes : EntsOk e pre es) (hpre : Denotes e.cwd e.pre pre)
    {t t' : Tree} (hw : t.Wf) (hnc : NoClash t es) (hpast : ∀ x ∈ es, ∀ n, t x.1.src = some n → n.mtime ≤ x.2)
    {copied : List (Bytes × Bytes)} (h : installAll e (asEntries es) t [] = .ok t' copied)
    (times : Ent × Nat → Nat) : installAll e (asEntries (es.map fun x => (x.1, times x))) t' [] = .ok t' [] := by
  have hw' := (all_frame hes hpre hw hnc h).1
  have hset := all_settled hes hpre hw hnc h
  have hsrc : ∀ x ∈ es, t' x.1.src = t x.1.src := by
    intro x hx
    have := (all_frame hes hpre hw hnc h).2 x.1.src (fun y hy => hes.srcs x hx y hy)
    exact this
  have key : ∀ l : List (Ent × Nat), (∀ x ∈ l, x ∈ es) → installAll e (asEntries (l.map fun x => (x.1, times x))) t' [] = .ok t' [] := by
    intro l
    induction l with
    | nil => intro _; rfl
    | cons x l ih =>
      intro hl
      have hx := hl x (by simp)
      have hrest := ih (fun y hy => hl y (by simp [hy]))
      simp only [asEntries, List.map_cons, installAll] at hrest ⊢
      by_cases hp : x.1.product e
      · have hk := denotes_cstr (hes.ok x hx).src
        obtain ⟨n, en⟩ := all_found hes hpre hw hnc h x hx
        · have hst := (stat_denotes hw' (hes.ok x hx).src).2 n ((hsrc x hx).trans en)
          have : installSingle e x.1.key x.1.val false (times x) t' = .product := by
            have hp' : isCookie e.absOut (pathStr x.1.src) = true := hp
            simp [installSingle, hk, hst, hp']
          rw [this]
          exact hrest
      · obtain ⟨⟨n, hn⟩, hs, hd⟩ := hset x hx hp
        have hn' : t' x.1.src = some n := (hsrc x hx).trans hn
        have hm : ∃ m, t' x.1.dst = some m ∧ n.mtime ≤ m.mtime := by
          rcases hd with hd | ⟨hd, n', m, hn2, hm, hle⟩
          · have := hd []
            simp only [List.append_nil] at this
            refine ⟨n.stamp x.2, by rw [this, hn]; rfl, ?_⟩
            rw [mtime_stamp]
            exact hpast x hx n hn
          · have := hd []
            simp only [List.append_nil] at this
            rw [hn] at hn2
            injection hn2 with hn2
            subst hn2
            exact ⟨m, this.trans hm, hle⟩
        obtain ⟨m, hm, hle⟩ := hm
        rw [single_skips (hes.ok x hx) hpre hw' (times x) hp hn' hm hle]
        exact hrest
  exact key es (fun x hx => hx)


/-! ## C31 -/

/-- **C31.** Installing a file creates, besides the destination, exactly the missing ones of the directories on the way from the prefix to it,
and they are directories of the tree. -/
theorem C31_parents_created {e : InstEnv} {pre : Path} {x : Ent} (hx : EntOk e pre x) (hpre : Denotes e.cwd e.pre pre) {t t2 : Tree} (hw : t.Wf) {now : Nat}
    (hap : Apart x.src x.dst) (hdir : ∀ c m, t x.src = some (.file c m) → ¬ t.IsDir x.dst)
    (h : installSingle e x.key x.val false now t = .copied t2) :
    t2.Wf ∧ ∀ q, ¬ x.dst <+: q → t q = none →
      ((t2 q ≠ none ↔ ∃ r s, r ≠ [] ∧ s ≠ [] ∧ q = pre ++ r ∧ x.dst = pre ++ (r ++ s)) ∧ (t2 q ≠ none → t2.IsDir q)) := by
  obtain ⟨_, _, _, _, hw2, t1, vs, last, hv, e2, hm, hq⟩ := single_copied hx hpre hw hap hdir h
  refine ⟨hw2, fun q hnq hn => ?_⟩
  have hiff : t2 q ≠ none ↔ t1 q ≠ none := by
    rcases hq q hnq with h' | ⟨_, h1, h2⟩
    · rw [h']
    · exact ⟨fun _ => h1.ne, fun _ => h2.ne⟩
  have hdirs : t1.IsDir q → t2.IsDir q := by
    rcases hq q hnq with h' | ⟨_, h1, h2⟩
    · unfold Tree.IsDir; rw [h']; exact id
    · exact fun _ => h2
  rcases hm.new q hn with h' | ⟨h', k, hk1, hk2, hk3⟩
  · refine ⟨⟨fun hh => (hiff.mp hh h').elim, ?_⟩, fun hh => (hiff.mp hh h').elim⟩
    rintro ⟨r, s, hr, hs, rfl, hd⟩
    rw [e2] at hd
    have hd' : vs ++ [last] = r ++ s := List.append_cancel_left hd
    have hs' : vs = r ++ s.dropLast := by
      have := congrArg List.dropLast hd'
      rw [List.dropLast_concat, List.dropLast_append_of_ne_nil hs] at this
      exact this
    have := hm.all r.length (List.length_pos_iff.mpr hr) (by rw [hs']; simp)
    rw [hs', List.take_left] at this
    exact (this h').elim
  · have hd2 : t2.IsDir q := hdirs ⟨now, h'⟩
    refine ⟨⟨fun _ => ⟨vs.take k, vs.drop k ++ [last], ?_, by simp, hk3, ?_⟩, fun _ => hd2.ne⟩, fun _ => hd2⟩
    · intro h0
      have := congrArg List.length h0
      rw [List.length_take, List.length_nil] at this
      omega
    · rw [← List.append_assoc (vs.take k), List.take_append_drop, e2]


/-! ## A project -/

/-- A file system given by a list. -/
def treeOf (l : List (Path × Node)) : Tree := fun p => (l.find? (·.1 == p)).map (·.2)

theorem treeOf_wf {l : List (Path × Node)} (h0 : (treeOf l).IsDir [])
    (h : ∀ e ∈ l, e.1 = [] ∨ (treeOf l e.1.dropLast).any Node.isDir = true) : (treeOf l).Wf := by
  refine ⟨h0, fun p c hp => ?_⟩
  cases e : l.find? (·.1 == p ++ [c]) with
  | none => simp [treeOf, e] at hp
  | some x =>
    have h1 := List.find?_some e
    have h2 := List.mem_of_find?_eq_some e
    have h3 : x.1 = p ++ [c] := by simpa using h1
    have hm := (h x h2).resolve_left (by rw [h3]; simp)
    rw [h3, List.dropLast_concat] at hm
    cases en : treeOf l p with
    | none => rw [en] at hm; simp at hm
    | some n =>
      cases n with
      | dir m => exact ⟨m, en⟩
      | file c m => rw [en] at hm; simp [Node.isDir] at hm

/-- A project in `/p`, with a read-me file, a directory of pictures, a build product, and a directory whose name starts like that of the
output directory. -/
def projTree : Tree := treeOf [
  ([], .dir 1), ([b!"p"], .dir 5), ([b!"p", b!"README"], .file b!"hello" 4),
  ([b!"p", b!"img"], .dir 3), ([b!"p", b!"img", b!"a.png"], .file b!"AAA" 3),
  ([b!"p", b!".bob"], .dir 5), ([b!"p", b!".bob", b!"x.o"], .file b!"OBJ" 5),
  ([b!"p", b!".bobx"], .dir 5), ([b!"p", b!".bobx", b!"f"], .file b!"F" 5),
  ([b!"usr"], .dir 1), ([b!"usr", b!"share"], .dir 1), ([b!"usr", b!"doc"], .dir 1), ([b!"usr", b!"doc", b!"README"], .file b!"old" 2)]

theorem projTree_wf : projTree.Wf := treeOf_wf ⟨1, by decide⟩ (by decide)

def noDeny : Deny := { mkdir := fun _ => false, copy := fun _ _ => none }

def projEnv : InstEnv := { deny := noDeny, cwd := [b!"p"], absOut := b!"/p/.bob", pre := b!"/usr" }

def readmeEnt : Ent := { key := b!"README", val := b!"share/p/README.txt", src := [b!"p", b!"README"], dst := [b!"usr", b!"share", b!"p", b!"README.txt"] }
def imgEnt : Ent := { key := b!"img", val := b!"share/img", src := [b!"p", b!"img"], dst := [b!"usr", b!"share", b!"img"] }
def objEnt : Ent := { key := b!".bob/x.o", val := b!"lib/x.o", src := [b!"p", b!".bob", b!"x.o"], dst := [b!"usr", b!"lib", b!"x.o"] }

def projEnts : List (Ent × Nat) := [(readmeEnt, 10), (objEnt, 11), (imgEnt, 12)]

theorem projPre : Denotes projEnv.cwd projEnv.pre [b!"usr"] := ⟨[b!"usr"], by simp, by unfold Plain; decide, Or.inr ⟨by decide, rfl⟩⟩

theorem projEnts_ok : EntsOk projEnv [b!"usr"] projEnts := by
  refine ⟨?_, ?_, ?_⟩
  · intro x hx
    simp only [projEnts, List.mem_cons, List.not_mem_nil, or_false] at hx
    rcases hx with rfl | rfl | rfl
    · exact ⟨⟨[b!"README"], by simp, by unfold Plain; decide, Or.inl ⟨by decide, rfl⟩⟩, [b!"share", b!"p"], b!"README.txt", by unfold Plain; decide, by unfold Plain; decide, by decide, rfl⟩
    · exact ⟨⟨[b!".bob", b!"x.o"], by simp, by unfold Plain; decide, Or.inl ⟨by decide, rfl⟩⟩, [b!"lib"], b!"x.o", by unfold Plain; decide, by unfold Plain; decide, by decide, rfl⟩
    · exact ⟨⟨[b!"img"], by simp, by unfold Plain; decide, Or.inl ⟨by decide, rfl⟩⟩, [b!"share"], b!"img", by unfold Plain; decide, by unfold Plain; decide, by decide, rfl⟩
  · unfold Apart; decide
  · unfold Apart; decide

theorem projEnts_noClash : NoClash projTree projEnts := by
  intro x hx
  simp only [projEnts, List.mem_cons, List.not_mem_nil, or_false] at hx
  have h0 : ∀ p, projTree p = none → ¬ projTree.IsDir p := fun p hp ⟨m, hm⟩ => by rw [hp] at hm; cases hm
  rcases hx with rfl | rfl | rfl <;> intro c m _ <;> exact h0 _ (by decide)

/-- The tree after installing it all. -/
def installedTree : AllRes → Tree
  | .failed t => t
  | .abort => fun _ => none
  | .ok t _ => t

def copiedOf : AllRes → List (Bytes × Bytes)
  | .ok _ c => c
  | _ => []

/-- The product, installed as such, is copied. -/
example : ∃ t', installSingle projEnv objEnt.key objEnt.val true 11 projTree = .copied t' ∧ t' [b!"usr", b!"lib", b!"x.o"] = some (.file b!"OBJ" 11) := by
  have hp : objEnt.product projEnv := by unfold Ent.product; decide
  have hne : ∀ t2, installSingle projEnv objEnt.key objEnt.val true 11 projTree ≠ .failed t2 := by
    intro t2 h
    have : (match installSingle projEnv objEnt.key objEnt.val true 11 projTree with | .copied _ => true | _ => false) = true := by decide
    rw [h] at this
    cases this
  rcases C30_product_copied_partial (projEnts_ok.1 (objEnt, 11) (by simp [projEnts])) projPre projTree_wf 11 (by unfold Apart; decide)
    (projEnts_noClash (objEnt, 11) (by simp [projEnts])) hp (n := .file b!"OBJ" 5) (by decide) with ⟨t2, h⟩ | ⟨t2, h, hin, _⟩ | ⟨_, m, h, _⟩
  · exact (hne t2 h).elim
  · exact ⟨t2, h, (hin []).trans (by decide)⟩
  · exact absurd h (by rw [show projTree objEnt.dst = none by decide]; simp)

/-- The hypotheses of C29, C31 and C32 hold for it, and this is what happens. -/
example : ∃ t', installAll projEnv (asEntries projEnts) projTree [] = .ok t' [(b!"README", b!"share/p/README.txt"), (b!"img", b!"share/img")] ∧
    t' [b!"usr", b!"share", b!"p"] = some (.dir 10) ∧ t' [b!"usr", b!"share", b!"p", b!"README.txt"] = some (.file b!"hello" 10) ∧
    t' [b!"usr", b!"share", b!"img", b!"a.png"] = some (.file b!"AAA" 12) ∧ t' [b!"usr", b!"lib"] = none :=
  ⟨_, rfl, by decide, by decide, by decide, by decide⟩

example : ∃ t', installAll projEnv (asEntries projEnts) projTree [] = .ok t' [(b!"README", b!"share/p/README.txt"), (b!"img", b!"share/img")] ∧
    installAll projEnv (asEntries (projEnts.map fun x => (x.1, 20))) t' [] = .ok t' [] := by
  refine ⟨_, rfl, ?_⟩
  refine C32_install_twice projEnts_ok projPre projTree_wf projEnts_noClash ?_ rfl (fun _ => 20)
  intro x hx
  simp only [projEnts, List.mem_cons, List.not_mem_nil, or_false] at hx
  rcases hx with rfl | rfl | rfl <;> intro n hn
  · have : projTree readmeEnt.src = some (.file b!"hello" 4) := by decide
    rw [this] at hn; injection hn with hn; subst hn; decide
  · have : projTree objEnt.src = some (.file b!"OBJ" 5) := by decide
    rw [this] at hn; injection hn with hn; subst hn; decide
  · have : projTree imgEnt.src = some (.dir 3) := by decide
    rw [this] at hn; injection hn with hn; subst hn; decide

/-- **C29** is false without the condition about directories: a file whose destination is an existing directory is copied *into* it, and
installing succeeds. -/
theorem C29_into_directory_false : ∃ t', installAll projEnv [((b!"README", b!"doc"), 10)] projTree [] = .ok t' [(b!"README", b!"doc")] ∧
    t' [b!"usr", b!"doc"] = some (.dir 1) ∧ t' [b!"usr", b!"doc", b!"README"] = some (.file b!"hello" 10) :=
  ⟨_, rfl, by decide, by decide⟩

/-- **C32** is false in the same case: since only the directory's time is looked at, the file is copied again every time. -/
theorem C32_into_directory_false : ∃ t1 t2, installAll projEnv [((b!"README", b!"doc"), 10)] projTree [] = .ok t1 [(b!"README", b!"doc")] ∧
    installAll projEnv [((b!"README", b!"doc"), 20)] t1 [] = .ok t2 [(b!"README", b!"doc")] :=
  ⟨_, _, rfl, rfl⟩

/-- **C31** needs destinations without `..`: this one makes a directory outside of the prefix. -/
theorem C31_dotdot_outside_false : ∃ t', installAll projEnv [((b!"README", b!"../evil/x"), 10)] projTree [] = .ok t' [(b!"README", b!"../evil/x")] ∧
    projTree [b!"evil"] = none ∧ t' [b!"evil"] = some (.dir 10) :=
  ⟨_, rfl, by decide, by decide⟩

/-! ## C66 -/

/-- **C66** is false: when a file in an installed directory changes, the directory's own time does not, and installing again skips it. -/
theorem C66_changed_file_in_directory_false : ∃ t1 t2, installAll projEnv [((b!"img", b!"share/img"), 10)] projTree [] = .ok t1 [(b!"img", b!"share/img")] ∧
    installAll projEnv [((b!"img", b!"share/img"), 30)] (t1.set [b!"p", b!"img", b!"a.png"] (.file b!"BBB" 20)) [] = .ok t2 [] ∧
    t2 [b!"p", b!"img", b!"a.png"] = some (.file b!"BBB" 20) ∧ t2 [b!"usr", b!"share", b!"img", b!"a.png"] = some (.file b!"AAA" 10) :=
  ⟨_, _, rfl, rfl, by decide, by decide⟩

/-- **C66**, partial: a change that shows in the source's own time is installed. -/
theorem C66_newer_source_installed_partial {e : InstEnv} {pre : Path} {es : List (Ent × Nat)} (hes : EntsOk e pre es) (hpre : Denotes e.cwd e.pre pre)
    {t t' : Tree} (hw : t.Wf) (hnc : NoClash t es) {copied : List (Bytes × Bytes)} (h : installAll e (asEntries es) t [] = .ok t' copied)
    (x : Ent × Nat) (hx : x ∈ es) (hnp : ¬ x.1.product e) (hnew : ∀ n m, t x.1.src = some n → t x.1.dst = some m → m.mtime < n.mtime) :
    SameData t x.1.src t' x.1.dst := by
  rcases C29_install_copies hes hpre hw hnc h x hx hnp with h' | ⟨_, n, m, hn, hm, hle⟩
  · exact h'.1
  · have := hnew n m hn hm
    omega

/-! ## C33 -/

theorem pathStr_join {p : Path} (h : p ≠ []) : pathStr p = b!"/" ++ joinP p := by
  have gen : ∀ p : Path, p ≠ [] → p.flatMap (b!"/" ++ ·) = b!"/" ++ joinP p := by
    intro p
    induction p with
    | nil => intro h; exact (h rfl).elim
    | cons c p ih =>
      intro _
      by_cases hp : p = []
      · subst hp; simp [joinP_single]
      · rw [List.flatMap_cons, ih hp, joinP_cons c hp]; simp
  cases p with
  | nil => exact (h rfl).elim
  | cons c p => exact gen (c :: p) (by simp)

/-- Continuing a string continues its last field. -/
theorem strsepAll_append (sep : UInt8) (x z : Bytes) : ∃ init last f fs, strsepAll sep x = init ++ [last] ∧ strsepAll sep z = f :: fs ∧
    strsepAll sep (x ++ z) = init ++ (last ++ f) :: fs := by
  cases ez : strsepAll sep z with
  | nil => exact (strsepAll_ne_nil _ _ ez).elim
  | cons f fs =>
    induction x with
    | nil => exact ⟨[], [], f, fs, rfl, rfl, by simpa using ez⟩
    | cons c cs ih =>
      obtain ⟨init, last, f', fs', h1, h2, h3⟩ := ih
      obtain ⟨rfl, rfl⟩ : f = f' ∧ fs = fs' := by simpa using h2
      by_cases hc : c = sep
      · exact ⟨[] :: init, last, f, fs, by simp [strsepAll, hc, h1], rfl, by simp [strsepAll, hc, h3]⟩
      · cases init with
        | nil => exact ⟨[], c :: last, f, fs, by simp [strsepAll, hc, h1], rfl, by simp [strsepAll, hc, h3]⟩
        | cons g init => exact ⟨(c :: g) :: init, last, f, fs, by simp [strsepAll, hc, h1], rfl, by simp [strsepAll, hc, h3]⟩

/-- **C33** is false: a file in `.bobx` is taken for a build product, and installing leaves it out without a word. -/
theorem C33_sibling_false : isCookie b!"/p/.bob" (pathStr [b!"p", b!".bobx", b!"f"]) = true ∧ ¬ [b!"p", b!".bob"] <+: [b!"p", b!".bobx", b!"f"] ∧
    ∃ t', installAll projEnv [((b!".bobx/f", b!"share/f"), 10)] projTree [] = .ok t' [] ∧ t' [b!"usr", b!"share", b!"f"] = none :=
  ⟨by decide, by decide, _, rfl, by decide⟩

/-- **C33**, partial: what counts as a product is what is in the output directory or in a directory whose name starts with its name. -/
theorem C33_product_iff_partial {out : Path} {last : Bytes} (hp : ∀ c ∈ out ++ [last], Plain c) {src : Path} (hs : ∀ c ∈ src, Plain c) :
    isCookie (pathStr (out ++ [last])) (pathStr src) = true ↔ ∃ more rest, src = out ++ (last ++ more) :: rest := by
  have ho := pathStr_join (p := out ++ [last]) (by simp)
  unfold isCookie
  rw [List.isPrefixOf_iff_prefix, ho]
  constructor
  · rintro ⟨z, hz⟩
    by_cases hsrc : src = []
    · subst hsrc
      exfalso
      have hne := joinP_ne_nil (ks := out ++ [last]) (by simp) hp
      have hl := congrArg List.length hz
      have := List.length_pos_iff.mpr hne
      simp [pathStr] at hl
      simp [hl] at this
    · rw [pathStr_join hsrc, List.append_assoc] at hz
      have hz' : joinP (out ++ [last]) ++ z = joinP src := List.append_cancel_left hz
      obtain ⟨init, l, f, fs, h1, _, h3⟩ := strsepAll_append SLASH (joinP (out ++ [last])) z
      rw [strsepAll_joinP (by simp) hp] at h1
      rw [hz', strsepAll_joinP hsrc hs] at h3
      obtain ⟨rfl, h4⟩ := List.append_inj' h1 rfl
      have : last = l := by simpa using h4
      subst this
      exact ⟨f, fs, h3⟩
  · rintro ⟨more, rest, rfl⟩
    rw [pathStr_join (by simp)]
    have e1 : joinP (out ++ [last]) <+: joinP (out ++ (last ++ more) :: rest) := by
      have key : joinP [last] <+: joinP ((last ++ more) :: rest) := by
        rw [joinP_single]
        by_cases hr : rest = []
        · subst hr; rw [joinP_single]; exact List.prefix_append _ _
        · rw [joinP_cons _ hr, List.append_assoc, List.append_assoc]; exact List.prefix_append _ _
      by_cases ho : out = []
      · subst ho; exact key
      · rw [joinP_append ho (by simp), joinP_append ho (by simp)]
        exact (List.prefix_append_right_inj _).mpr key
    exact (List.prefix_append_right_inj _).mpr e1

/-- **C33**, partial: everything in the output directory is a product. -/
theorem C33_inside_is_product_partial {out : Path} {last : Bytes} (hp : ∀ c ∈ out ++ [last], Plain c) {src : Path} (hs : ∀ c ∈ src, Plain c)
    (h : out ++ [last] <+: src) : isCookie (pathStr (out ++ [last])) (pathStr src) = true := by
  refine (C33_product_iff_partial hp hs).mpr ?_
  obtain ⟨r, rfl⟩ := h
  exact ⟨[], r, by simp⟩

/-! ## C34 -/

/-- All ownership changes of a run: for the output directory if it had to be made, before its absolute path is known (`src/main.c:153-160`), and
then for whatever paths the rest asks for, each at a time with its own `realpath`. -/
def ownTrace (root : Bool) (owner : Nat) (out absOut : Bytes) (made : Bool) (later : List (Bytes × (Bytes → Option Bytes))) : List (Bytes × Nat) :=
  (if made then setOwner { root := root, owner := owner, absOut := none, realpath := fun _ => none } out else []) ++
  later.flatMap fun c => setOwner { root := root, owner := owner, absOut := some absOut, realpath := c.2 } c.1

/-- **C34.** Ownership is only ever changed as root, to the recorded owner, and for the output directory itself or for paths whose absolute
path starts with that of the output directory. -/
theorem C34_ownership (root : Bool) (owner : Nat) (out absOut : Bytes) (made : Bool) (later : List (Bytes × (Bytes → Option Bytes)))
    (p : Bytes) (u : Nat) (h : (p, u) ∈ ownTrace root owner out absOut made later) :
    root = true ∧ u = owner ∧ (p = out ∧ made = true ∨ ∃ c ∈ later, c.1 = p ∧ ∃ full, c.2 p = some full ∧ absOut <+: full) := by
  unfold ownTrace at h
  rcases List.mem_append.mp h with h | h
  · cases made with
    | false => simp at h
    | true =>
      cases root with
      | false => simp [setOwner] at h
      | true =>
        simp [setOwner] at h
        exact ⟨rfl, h.2, Or.inl ⟨h.1, rfl⟩⟩
  · obtain ⟨c, hc, h⟩ := List.mem_flatMap.mp h
    cases root with
    | false => simp [setOwner] at h
    | true =>
      simp only [setOwner, Bool.not_true, Bool.false_eq_true, if_false] at h
      cases e : c.2 c.1 with
      | none => simp [e] at h
      | some full =>
        simp only [e] at h
        split at h
        · rename_i hp
          simp only [List.mem_singleton, Prod.mk.injEq] at h
          refine ⟨rfl, h.2, Or.inr ⟨c, hc, h.1.symm, full, by rw [h.1]; exact e, ?_⟩⟩
          exact List.isPrefixOf_iff_prefix.mp hp
        · simp at h

/-- Instance: as root, a log in the output directory changes hands, an installed file does not. -/
example : ownTrace true 1000 b!".bob" b!"/p/.bob" true [(b!".bob/bob/x.log", fun _ => some b!"/p/.bob/bob/x.log"), (b!"/usr/lib", fun _ => some b!"/usr/lib")] =
    [(b!".bob", 1000), (b!".bob/bob/x.log", 1000)] := by decide

/-! ## C28 -/

/-- An acceptable value of `install`. -/
def GoodInstall : ScriptVal → Prop
  | .none => True
  | .map entries => ∀ e ∈ entries, e.1 ≠ none ∧ e.2 ≠ none
  | _ => False

theorem checkEntries_some (l : List (Option Bytes × Option Bytes)) :
    (checkEntries l ≠ none ↔ ∀ e ∈ l, e.1 ≠ none ∧ e.2 ≠ none) ∧
    ∀ r, checkEntries l = some r → l = r.map fun e => (some e.1, some e.2) := by
  induction l with
  | nil =>
    refine ⟨by simp [checkEntries], fun r hr => ?_⟩
    simp only [checkEntries, Option.some.injEq] at hr
    subst hr; rfl
  | cons a l ih =>
    obtain ⟨k, v⟩ := a
    cases k with
    | none => exact ⟨by simp [checkEntries], fun r hr => by simp [checkEntries] at hr⟩
    | some k =>
      cases v with
      | none => exact ⟨by simp [checkEntries], fun r hr => by simp [checkEntries] at hr⟩
      | some v =>
        refine ⟨?_, fun r hr => ?_⟩
        · have := ih.1
          simp only [checkEntries, ne_eq, Option.map_eq_none_iff, List.forall_mem_cons]
          rw [← ne_eq, this]
          simp
        · simp only [checkEntries, Option.map_eq_some_iff] at hr
          obtain ⟨r', h1, rfl⟩ := hr
          rw [ih.2 r' h1]; simp

/-- **C28.** The install map is accepted exactly when there is a variable `install` and the first such is none or a map from strings to
strings.  If it is refused, there is no map in force and installing does nothing; if it is none or empty, likewise; otherwise the map in force
is that one. -/
theorem C28_install_map (vars : List (Bytes × ScriptVal)) (pre : Option Bytes) (g : InstGlobals) :
    ((setupInstallMap vars pre g).2 = true ↔ ∃ v, vars.find? (fun v => v.1 == b!"install") = some v ∧ GoodInstall v.2) ∧
    ((setupInstallMap vars pre g).2 = false → (setupInstallMap vars pre g).1.map = none) ∧
    (∀ n entries, vars.find? (fun v => v.1 == b!"install") = some (n, .map entries) → entries ≠ [] → (setupInstallMap vars pre g).2 = true →
      ∃ l, entries = l.map (fun e => (some e.1, some e.2)) ∧ (setupInstallMap vars pre g).1 = { map := some l, pre := pre }) ∧
    (∀ n v, vars.find? (fun v => v.1 == b!"install") = some (n, v) → v = .none ∨ v = .map [] →
      (setupInstallMap vars pre g).2 = true ∧ (setupInstallMap vars pre g).1.map = none) := by
  unfold setupInstallMap
  cases e : vars.find? (fun v => v.1 == b!"install") with
  | none => simp
  | some x =>
    obtain ⟨n, v⟩ := x
    cases v with
    | none => simp [GoodInstall]
    | vec l => simp [GoodInstall]
    | other => simp [GoodInstall]
    | map l =>
      cases l with
      | nil => simp [GoodInstall]
      | cons a l =>
        have hc := checkEntries_some (a :: l)
        cases ec : checkEntries (a :: l) with
        | none =>
          rw [ec] at hc
          have hng : ¬ GoodInstall (.map (a :: l)) := fun hg => hc.1.mpr hg rfl
          refine ⟨⟨fun h => by simp [ec] at h, fun ⟨v, hv, hg⟩ => ?_⟩, by simp [ec], fun _ _ _ _ h => by simp [ec] at h, fun m v hv h => ?_⟩
          · simp only [Option.some.injEq] at hv
            subst hv
            exact (hng hg).elim
          · simp only [Option.some.injEq, Prod.mk.injEq] at hv
            rw [← hv.2] at h
            rcases h with h | h <;> cases h
        | some r =>
          rw [ec] at hc
          have hg : GoodInstall (.map (a :: l)) := hc.1.mp (by simp)
          refine ⟨⟨fun _ => ⟨_, rfl, hg⟩, fun _ => by simp [ec]⟩, fun h => by simp [ec] at h, fun m entries he _ _ => ?_, fun m v hv h => ?_⟩
          · simp only [Option.some.injEq, Prod.mk.injEq, ScriptVal.map.injEq] at he
            refine ⟨r, ?_, by simp [ec]⟩
            rw [← he.2]
            exact hc.2 r rfl
          · simp only [Option.some.injEq, Prod.mk.injEq] at hv
            rw [← hv.2] at h
            rcases h with h | h <;> cases h

/-- **C28.** With a map that is refused, none or empty, nothing is installed: for every file system. -/
theorem C28_nothing_installed (e : Bytes → InstEnv) (times : Nat → Nat) (g : InstGlobals) (h : g.map = none) (t : Tree) :
    installAllG e times g t = .ok t [] := by
  unfold installAllG
  rw [h]

/-- **C28.** Nor is anything without a prefix, as after `bob build`; with both, the entries of the map are installed below the prefix, in order. -/
theorem C28_no_prefix (e : Bytes → InstEnv) (times : Nat → Nat) (g : InstGlobals) (h : g.pre = none) (t : Tree) : installAllG e times g t = .ok t [] := by
  unfold installAllG
  rw [h]
  cases g.map <;> rfl

theorem C28_installed (e : Bytes → InstEnv) (times : Nat → Nat) (l : List (Bytes × Bytes)) (pre : Bytes) (t : Tree) :
    installAllG e times { map := some l, pre := some pre } t = installAll (e pre) (l.zipIdx.map fun x => (x.1, times x.2)) t [] := rfl

example : setupInstallMap [(b!"x", .other), (b!"install", .map [(some b!"a", some b!"b"), (some b!"c", none)])] (some b!"/usr") .init = (.init, false) := by decide
example : setupInstallMap [(b!"install", .map [(some b!"a", some b!"b")]), (b!"run", .vec [])] (some b!"/usr") .init =
    ({ map := some [(b!"a", b!"b")], pre := some b!"/usr" }, true) := by decide

end Bob
