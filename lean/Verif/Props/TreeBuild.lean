import Verif.Spec.TreeBuild
/-!
# C109: builds on a file system with directories
-/

namespace Bob

variable {free : Prop} {t0 : Tree} {e : TEnv} {path : Bytes → Path} {tc : Toolchain} {reqs : List Req}

/-! ## Trees and what is seen of them -/

def nodeFile : Option Node → Option File
  | some (.file c m) => some ⟨c, m⟩
  | _ => none

theorem fileAt_denotes {t : Tree} (hw : t.Wf) {cwd : Path} {s : Bytes} {p : Path} (h : Denotes cwd s p) : t.fileAt cwd s = nodeFile (t p) := by
  have hs := stat_denotes hw h
  unfold Tree.fileAt
  cases e1 : t.stat cwd s with
  | ok v =>
    obtain ⟨q, n⟩ := v
    obtain ⟨_, h2⟩ := hs.1 q n e1
    rw [h2]
    cases n <;> rfl
  | error x =>
    cases e2 : t p with
    | none => rfl
    | some n => rw [hs.2 n e2] at e1; cases e1

/-- A tree after a file was written, or (`none`) removed; directories may have been made on the way to it. -/
structure Upd (t t' : Tree) (p : Path) (f : Option File) : Prop where
  wf : t'.Wf
  file : t' p = f.map fun f => .file f.content f.mtime
  files : ∀ q, q ≠ p → nodeFile (t' q) = nodeFile (t q)
  dirs : ∀ q, t.IsDir q → t'.IsDir q
  new : ∀ q, t'.IsDir q → t.IsDir q ∨ q <+: p
  same : ∀ q, ¬ q <+: p → t' q = t q

/-- Besides, nothing else has changed since `t0`. -/
structure ReadyF (t0 : Tree) (free : Prop) (e : TEnv) (path : Bytes → Path) (reqs : List Req) (t : Tree) : Prop extends Ready free e path reqs t where
  frame : Frame e path reqs t0 t

theorem nodeFile_eq {a b : Option Node} : nodeFile a = nodeFile b ↔ ∀ c m, a = some (.file c m) ↔ b = some (.file c m) := by
  constructor
  · intro h c m
    constructor <;> intro h' <;> subst h'
    · rcases b with _ | _ | ⟨c', m'⟩ <;> simp_all [nodeFile]
    · rcases a with _ | _ | ⟨c', m'⟩ <;> simp_all [nodeFile]
  · intro h
    rcases a with _ | _ | ⟨c, m⟩
    · rcases b with _ | _ | ⟨c', m'⟩
      · rfl
      · rfl
      · exact absurd ((h c' m').2 rfl) (by simp)
    · rcases b with _ | _ | ⟨c', m'⟩
      · rfl
      · rfl
      · exact absurd ((h c' m').2 rfl) (by simp)
    · rw [(h c m).1 rfl]

theorem view_apply (t : Tree) (s : Bytes) : t.view e.cwd e.known s = if e.known s = true then t.fileAt e.cwd s else none := rfl

theorem upd_ready (hP : Placed e path tc reqs) {t t' : Tree} (hR : ReadyF t0 free e path reqs t) {w : Bytes} (hw : e.known w = true) (hch : Changes e reqs w) {f : Option File} (h : Upd t t' (path w) f)
    (hd : ∀ j, CJobIn reqs j → w = depsPath j.out → ∀ g, f = some g → ∀ d ∈ readDeps g.content, e.known d = true) :
    ReadyF t0 free e path reqs t' ∧ t'.view e.cwd e.known = (t.view e.cwd e.known).set w f := by
  have hne : ∀ s, e.known s = true → s ≠ w → path s ≠ path w := fun s hs hn he => hn (hP.apart s w hs hw (he ▸ List.prefix_refl _))
  have hat : ∀ s, e.known s = true → t'.fileAt e.cwd s = if s = w then f else t.fileAt e.cwd s := by
    intro s hs
    rw [fileAt_denotes h.wf (hP.denotes s hs), fileAt_denotes hR.wf (hP.denotes s hs)]
    by_cases he : s = w
    · subst he
      rw [if_pos rfl, h.file]
      cases f <;> rfl
    · rw [if_neg he]; exact h.files _ (hne s hs he)
  refine ⟨⟨⟨h.wf, fun s hs hdir => ?_, fun w' hw' => h.dirs _ (hR.dirs w' hw'), fun j hj text ht => ?_, fun hf => ?_⟩, fun q hq => ?_, fun q hq => ?_, fun q hq => h.dirs q (hR.frame.dirs q hq)⟩, ?_⟩
  · rcases h.new _ hdir with h' | h'
    · exact hR.files s hs h'
    · obtain ⟨m, hm⟩ := hdir
      have : s = w := hP.apart s w hs hw h'
      subst this
      rw [h.file] at hm
      cases f <;> simp at hm
  · rw [hat _ (hP.writes _ (Or.inl ⟨j, hj, by simp⟩))] at ht
    split at ht
    · rename_i he
      cases f with
      | none => simp at ht
      | some g =>
        simp only [Option.map_some, Option.some.injEq] at ht
        subst ht
        exact hd j hj he.symm g rfl
    · exact hR.deps j hj text ht
  · have hF := hR.open_ hf
    refine ⟨hF.mkdir, hF.copy, fun pre p h1 h2 => h.dirs _ (hF.prefix_ pre p h1 h2), fun s hs q hq hqs c m hc => ?_⟩
    have hqw : q ≠ path w := fun he => by
      have := hP.apart w s hw hs (he ▸ hq)
      exact hqs (by rw [he, this])
    have h1 := h.files q hqw
    rw [hc] at h1
    cases e1 : t q with
    | none => rw [e1] at h1; cases h1
    | some n =>
      cases n with
      | dir m' => rw [e1] at h1; cases h1
      | file c' m' => exact hF.above s hs q hq hqs c' m' e1
  · rw [h.same q (hq w hch)]; exact hR.frame.same q hq
  · rw [← nodeFile_eq, h.files q (hq w hch), nodeFile_eq]; exact hR.frame.files q hq
  · funext s
    simp only [FS.set, view_apply]
    by_cases hs : e.known s = true
    · simp only [hs, if_true]; exact hat s hs
    · have hsw : s ≠ w := fun he => hs (he ▸ hw)
      simp [hs, hsw]

theorem touch_file (t : Tree) (p q : Path) (now : Nat) : nodeFile (t.touch p now q) = nodeFile (t q) := by
  unfold Tree.touch
  split
  · cases t q with
    | none => rfl
    | some n => cases n <;> rfl
  · rfl

theorem touch_dir (t : Tree) (p q : Path) (now : Nat) : (t.touch p now).IsDir q ↔ t.IsDir q := by
  unfold Tree.touch Tree.IsDir
  show (∃ m, (if q = p then (t q).map (fun n => match n with | .dir _ => .dir now | n => n) else t q) = some (.dir m)) ↔ _
  split
  · cases t q with
    | none => simp
    | some n => cases n <;> simp
  · rfl

theorem touch_none (t : Tree) (p q : Path) (now : Nat) : t.touch p now q = none ↔ t q = none := by
  unfold Tree.touch
  split
  · simp
  · rfl

/-- Changing what is not a directory, in a directory. -/
theorem upd_of {t t' : Tree} (hw : t.Wf) {p : Path} (hnd : ¬ t.IsDir p) (hpar : t.IsDir p.dropLast) {f : Option File}
    (hat : t' p = f.map fun f => .file f.content f.mtime) (hfile : ∀ q, q ≠ p → nodeFile (t' q) = nodeFile (t q)) (hdir : ∀ q, q ≠ p → (t'.IsDir q ↔ t.IsDir q))
    (hsame : ∀ q, ¬ q <+: p → t' q = t q) : Upd t t' p f := by
  have hdirs : ∀ q, t.IsDir q → t'.IsDir q := fun q hq => (hdir q (fun he => hnd (he ▸ hq))).mpr hq
  refine ⟨⟨hdirs _ hw.root, fun a c hc => ?_⟩, hat, hfile, hdirs, fun q hq => ?_, hsame⟩
  · by_cases he : a ++ [c] = p
    · have : a = p.dropLast := by rw [← he]; simp
      rw [this]; exact hdirs _ hpar
    · refine hdirs _ (hw.parent a c (fun hn => hc ?_))
      cases e1 : t' (a ++ [c]) with
      | none => rfl
      | some n =>
        cases n with
        | dir m =>
          obtain ⟨m', h'⟩ := (hdir _ he).mp ⟨m, e1⟩
          rw [hn] at h'; cases h'
        | file x m =>
          have := hfile _ he
          rw [e1, hn] at this
          cases this
  · by_cases he : q = p
    · exact Or.inr (he ▸ List.prefix_refl _)
    · exact Or.inl ((hdir q he).mp hq)

theorem set_other {t : Tree} {p q : Path} {n : Node} (h : q ≠ p) : t.set p n q = t q := by simp [Tree.set, h]
theorem set_same (t : Tree) (p : Path) (n : Node) : t.set p n p = some n := by simp [Tree.set]

theorem not_on {p q : Path} (h : ¬ q <+: p) : q ≠ p := fun he => h (he ▸ List.prefix_refl _)

theorem not_above {p q : Path} (h : ¬ q <+: p) : q ≠ p.dropLast := fun he => h (he ▸ List.dropLast_prefix p)

theorem put_upd {t : Tree} (hw : t.Wf) {cwd : Path} {s : Bytes} {p : Path} (hs : Denotes cwd s p) (hnd : ¬ t.IsDir p) (hpar : t.IsDir p.dropLast) (now : Nat) (c : Bytes) :
    ∃ t', t.put cwd now s c = some t' ∧ Upd t t' p (some ⟨c, now⟩) := by
  have hp := denotes_ne_nil hs
  have hr := (resolve_denotes hw hs).2 hpar
  have hdl : p ≠ p.dropLast := fun he => by have h1 := dropLast_lt hp; have h2 := congrArg List.length he; omega
  unfold Tree.put
  rw [hr]
  dsimp only
  cases e1 : t p with
  | some n =>
    cases n with
    | dir m => exact (hnd ⟨m, e1⟩).elim
    | file x m =>
      refine ⟨_, rfl, upd_of hw hnd hpar (set_same t p _) (fun q hq => ?_) (fun q hq => ?_) (fun q hq => ?_)⟩
      · rw [set_other hq]
      · unfold Tree.IsDir; rw [set_other hq]
      · rw [set_other (not_on hq)]
  | none =>
    refine ⟨_, rfl, upd_of hw hnd hpar ?_ (fun q hq => ?_) (fun q hq => ?_) (fun q hq => ?_)⟩
    · rw [touch_not_dir hdl, set_same]; rfl
    · rw [touch_file, set_other hq]
    · rw [touch_dir]; unfold Tree.IsDir; rw [set_other hq]
    · rw [touch_not_dir (not_above hq), set_other (not_on hq)]

theorem del_upd {t : Tree} (hw : t.Wf) {cwd : Path} {s : Bytes} {p : Path} (hs : Denotes cwd s p) (hnd : ¬ t.IsDir p) (hpar : t.IsDir p.dropLast) (now : Nat) :
    Upd t (t.del cwd now s) p none := by
  have hp := denotes_ne_nil hs
  have hr := (resolve_denotes hw hs).2 hpar
  have hdl : p ≠ p.dropLast := fun he => by have h1 := dropLast_lt hp; have h2 := congrArg List.length he; omega
  unfold Tree.del
  rw [hr]
  dsimp only
  cases e1 : t p with
  | some n =>
    cases n with
    | dir m => exact (hnd ⟨m, e1⟩).elim
    | file x m =>
      refine upd_of hw hnd hpar ?_ (fun q hq => ?_) (fun q hq => ?_) (fun q hq => ?_)
      · refine (touch_not_dir hdl).trans ?_; simp
      · refine (touch_file _ _ _ _).trans ?_; simp [hq]
      · refine (touch_dir _ _ _ _).trans ?_; unfold Tree.IsDir; simp [hq]
      · refine (touch_not_dir (not_above hq)).trans ?_; simp [not_on hq]
  | none => exact upd_of hw hnd hpar e1 (fun q hq => rfl) (fun q hq => Iff.rfl) (fun q hq => rfl)

/-! ## What a build does to files -/

theorem writes_out {o : Bytes} (h : o ∈ outsOf reqs) : Writes reqs o ∧ Writes reqs (flagsPath o) ∧ Writes reqs (logPath o) := by
  unfold outsOf at h
  obtain ⟨r, hr, ho⟩ := List.mem_flatMap.mp h
  cases r with
  | compile jobs =>
    obtain ⟨j, hj, rfl⟩ := List.mem_map.mp ho
    exact ⟨Or.inl ⟨j, ⟨jobs, hr, hj⟩, by simp⟩, Or.inl ⟨j, ⟨jobs, hr, hj⟩, by simp⟩, Or.inl ⟨j, ⟨jobs, hr, hj⟩, by simp⟩⟩
  | link j =>
    simp only [Req.outs, List.mem_singleton] at ho
    subst ho
    exact ⟨Or.inr ⟨j, hr, by simp⟩, Or.inr ⟨j, hr, by simp⟩, Or.inr ⟨j, hr, by simp⟩⟩

theorem cjob_out {j : CJob} (h : CJobIn reqs j) : j.out ∈ outsOf reqs := by
  obtain ⟨jobs, h1, h2⟩ := h
  exact List.mem_flatMap.mpr ⟨_, h1, List.mem_map.mpr ⟨j, h2, rfl⟩⟩

theorem ljob_out {j : LJob} (h : .link j ∈ reqs) : j.out ∈ outsOf reqs := List.mem_flatMap.mpr ⟨_, h, by simp [Req.outs]⟩

theorem flags_ne_deps (a b : Bytes) : flagsPath a ≠ depsPath b := by
  intro h
  have := congrArg (fun l => l.reverse.take 4) h
  simp [flagsPath, depsPath, List.reverse_append] at this

theorem log_ne_deps (a b : Bytes) : logPath a ≠ depsPath b := by
  intro h
  have := congrArg (fun l => l.reverse.take 4) h
  simp [logPath, depsPath, List.reverse_append] at this

theorem write_ok (hP : Placed e path tc reqs) {s : TStore} (hR : ReadyF t0 free e path reqs s.tree) {w : Bytes} (hw : Writes reqs w) (c : Bytes)
    (hd : ∀ j, CJobIn reqs j → w = depsPath j.out → ∀ d ∈ readDeps c, e.known d = true) :
    ∃ s', s.write e w c = some s' ∧ ReadyF t0 free e path reqs s'.tree ∧ s'.flat e = (s.flat e).write w c := by
  have hk := hP.writes w hw
  obtain ⟨t', h1, h2⟩ := put_upd hR.wf (hP.denotes w hk) (hR.files w hk) (hR.dirs w hw) s.now c
  obtain ⟨h3, h4⟩ := upd_ready hP hR hk (Or.inl hw) h2 (fun j hj he g hg d hdd => by cases hg; exact hd j hj he d hdd)
  refine ⟨{ s with tree := t' }, by simp [TStore.write, h1], h3, ?_⟩
  simp only [TStore.flat, TStore.view, Store.write, h4]

theorem remove_ok (hP : Placed e path tc reqs) {s : TStore} (hR : ReadyF t0 free e path reqs s.tree) {w : Bytes} (hw : Writes reqs w) :
    ReadyF t0 free e path reqs (s.remove e w).tree ∧ (s.remove e w).flat e = (s.flat e).remove w := by
  have hk := hP.writes w hw
  obtain ⟨h3, h4⟩ := upd_ready hP hR hk (Or.inl hw) (del_upd hR.wf (hP.denotes w hk) (hR.files w hk) (hR.dirs w hw) s.now) (fun j hj he g hg d hdd => by cases hg)
  refine ⟨h3, ?_⟩
  simp only [TStore.flat, TStore.view, Store.remove, TStore.remove, h4]

theorem read_ok {s : TStore} {w : Bytes} (hw : e.known w = true) : s.read e w = (s.flat e).fs.content w := by
  simp [TStore.read, TStore.flat, TStore.view, FS.content, view_apply, hw]

/-! ## Installing a product -/

theorem installed_upd {pre : Bytes} {prePath : Path} {x : Ent} (hx : EntOk (e.inst pre) prePath x) (hpre : Denotes e.cwd pre prePath) {t t2 : Tree} (hw : t.Wf) {now : Nat}
    (hap : Apart x.src x.dst) {c : Bytes} {m : Nat} (hsrc : t x.src = some (.file c m)) (hdst : ¬ t.IsDir x.dst) {b : Bool}
    (h : installSingle (e.inst pre) x.key x.val b now t = .copied t2) : Upd t t2 x.dst (some ⟨c, now⟩) := by
  obtain ⟨-, -, hin, hout, hw2, t1, vs, last, -, hd, hmade, hcase⟩ := single_copied hx hpre hw hap (fun _ _ _ => hdst) h
  have hat : t2 x.dst = some (.file c now) := by
    have := hin []
    simp only [List.append_nil, hsrc] at this
    exact this
  have hbelow : ∀ r, r ≠ [] → t2 (x.dst ++ r) = none ∧ t (x.dst ++ r) = none := by
    intro r hr
    refine ⟨?_, wf_below_file hw hdst r hr⟩
    rw [hin r, wf_below_file hw (by rintro ⟨m', h'⟩; rw [hsrc] at h'; cases h') r hr]; rfl
  have habove : ∀ q, q <+: x.dst → q ≠ x.dst → t2.IsDir q := by
    rintro q ⟨r, hr⟩ hne
    refine wf_up hw2 q r (fun he => hne ?_) (by rw [hr, hat]; simp)
    rw [he, List.append_nil] at hr; exact hr
  have hfileAbove : ∀ q, q <+: x.dst → q ≠ x.dst → nodeFile (t q) = none := by
    intro q hq hne
    obtain ⟨m2, h2⟩ := habove q hq hne
    cases e1 : t q with
    | none => rfl
    | some n =>
      cases n with
      | dir _ => rfl
      | file y my =>
        exfalso
        have hnb : ¬ x.dst <+: q := fun hb => hne (hq.eq_of_length_le hb.length_le)
        rcases hmade.kept q _ e1 with h1 | ⟨h1, _⟩
        · rcases hcase q hnb with h3 | ⟨_, ⟨m1, h3⟩, _⟩
          · rw [h3, h1] at h2; cases h2
          · rw [h1] at h3; cases h3
        · cases h1
  refine ⟨hw2, hat, fun q hq => ?_, fun q hq => ?_, fun q hq => ?_, fun q hq => ?_⟩
  · by_cases h1 : q <+: x.dst
    · obtain ⟨m2, h2⟩ := habove q h1 hq
      rw [h2, hfileAbove q h1 hq]; rfl
    · by_cases h2 : x.dst <+: q
      · obtain ⟨r, rfl⟩ := h2
        obtain ⟨h3, h4⟩ := hbelow r (fun he => hq (by simp [he]))
        rw [h3, h4]
      · rw [hout q ⟨h1, h2⟩]
  · by_cases h1 : q <+: x.dst
    · exact habove q h1 (fun he => hdst (he ▸ hq))
    · by_cases h2 : x.dst <+: q
      · obtain ⟨r, rfl⟩ := h2
        by_cases hr : r = []
        · subst hr; exact (h1 (by simp)).elim
        · exact (hq.ne (hbelow r hr).2).elim
      · obtain ⟨m', h'⟩ := hq
        exact ⟨m', by rw [hout q ⟨h1, h2⟩]; exact h'⟩
  · by_cases h1 : q <+: x.dst
    · exact Or.inr h1
    · by_cases h2 : x.dst <+: q
      · obtain ⟨r, rfl⟩ := h2
        by_cases hr : r = []
        · subst hr; exact (h1 (by simp)).elim
        · exact (hq.ne (hbelow r hr).1).elim
      · obtain ⟨m', h'⟩ := hq
        rw [hout q ⟨h1, h2⟩] at h'
        exact Or.inl ⟨m', h'⟩
  · by_cases h2 : x.dst <+: q
    · obtain ⟨r, rfl⟩ := h2
      obtain ⟨h3, h4⟩ := hbelow r (fun he => hq (by simp [he]))
      rw [h3, h4]
    · exact hout q ⟨hq, h2⟩

theorem known_file (hP : Placed e path tc reqs) {t : Tree} (hR : ReadyF t0 free e path reqs t) {s : Bytes} (hs : e.known s = true) {n : Node} (h : t (path s) = some n) :
    ∃ c m, n = .file c m ∧ t.view e.cwd e.known s = some ⟨c, m⟩ := by
  cases n with
  | dir m => exact (hR.files s hs ⟨m, h⟩).elim
  | file c m =>
    refine ⟨c, m, rfl, ?_⟩
    rw [view_apply, if_pos hs, fileAt_denotes hR.wf (hP.denotes s hs), h]
    rfl

theorem known_none (hP : Placed e path tc reqs) {t : Tree} (hR : ReadyF t0 free e path reqs t) {s : Bytes} (hs : e.known s = true) (h : t (path s) = none) :
    t.view e.cwd e.known s = none := by
  rw [view_apply, if_pos hs, fileAt_denotes hR.wf (hP.denotes s hs), h]; rfl

/-- Installing a product on the tree, when it succeeds, is installing it without directories. -/
theorem install_ok (hP : Placed e path tc reqs) {s s' : TStore} (hR : ReadyF t0 free e path reqs s.tree) {o : Bytes} (ho : o ∈ outsOf reqs) (h : tInstall e o s = (s', true)) :
    ReadyF t0 free e path reqs s'.tree ∧ installCookie e.flat o (s.flat e) = (s'.flat e, true) := by
  unfold tInstall at h
  split at h
  · rename_i hp
    cases h
    refine ⟨hR, ?_⟩
    simp [installCookie, InstCfg.dest, TEnv.flat, hp]
  · rename_i pre hp
    split at h
    · rename_i hf
      cases h
      refine ⟨hR, ?_⟩
      simp [installCookie, InstCfg.dest, TEnv.flat, hp, hf]
    · rename_i x hf
      have hx1 : x.1 = o := by simpa using List.find?_some hf
      obtain ⟨o', v⟩ := x
      dsimp only at hx1 h
      subst hx1
      obtain ⟨hk, hne, hnd, hpr, prePath, hpre, hE⟩ := hP.dest o' ho pre v hp hf
      have hko := hP.writes o' (writes_out ho).1
      have hap : Apart (path o') (path (pre ++ b!"/" ++ v)) := ⟨fun hh => hne (hP.apart _ _ hko hk hh).symm, fun hh => hne (hP.apart _ _ hk hko hh)⟩
      have hdest : e.flat.dest o' = some (pre ++ b!"/" ++ v) := by simp [InstCfg.dest, TEnv.flat, hp, hf]
      split at h
      · rename_i t2 hs
        cases h
        obtain ⟨⟨n, hn⟩, -⟩ := single_copied hE hpre hR.wf hap (fun _ _ _ => hR.files _ hk) hs
        obtain ⟨c, m, rfl, hv⟩ := known_file hP hR hko hn
        have hU := installed_upd hE hpre hR.wf hap hn (hR.files _ hk) hs
        obtain ⟨h3, h4⟩ := upd_ready hP hR hk (Or.inr ⟨o', ho, pre, v, hp, hf, rfl⟩) hU (fun j hj he => (hnd j hj he).elim)
        refine ⟨h3, ?_⟩
        have hfr : frugalMtime (s.flat e).fs.stat [o'] (pre ++ b!"/" ++ v) = some true := by
          cases ed : s.tree (path (pre ++ b!"/" ++ v)) with
          | none =>
            have := known_none hP hR hk ed
            simp only [frugalMtime, FS.stat, TStore.flat, TStore.view, this]
          | some n' =>
            obtain ⟨c', m', rfl, hv'⟩ := known_file hP hR hk ed
            simp only [frugalMtime, FS.stat, TStore.flat, TStore.view, hv', hv, mtimeLoop]
            by_cases hle : m > m'
            · simp [hle]
            · exfalso
              have := single_skips_any hE hpre hR.wf s.now true hpr hn ed (by simpa [Node.mtime] using hle)
              rw [hs] at this
              cases this
        have hfs : (s.flat e).fs o' = some ⟨c, m⟩ := hv
        have hbad : e.flat.bad (pre ++ b!"/" ++ v) = false := rfl
        simp only [installCookie, hdest, hfs, hbad, hfr]
        simp only [TStore.flat, TStore.view, TStore.emit, Store.write, Store.emit, h4]
        rfl
      · rename_i t2 hs
        cases h
        obtain ⟨rfl, -, n, m, hn, hm, hle⟩ := single_already hE hpre hR.wf hap hs
        refine ⟨hR, ?_⟩
        obtain ⟨c, mc, rfl, hv⟩ := known_file hP hR hko hn
        obtain ⟨c', m', rfl, hv'⟩ := known_file hP hR hk hm
        have hfs : (s.flat e).fs o' = some ⟨c, mc⟩ := hv
        have hle' : ¬ mc > m' := by simpa [Node.mtime] using hle
        have hfr : frugalMtime (s.flat e).fs.stat [o'] (pre ++ b!"/" ++ v) = some false := by
          simp only [frugalMtime, FS.stat, TStore.flat, TStore.view, hv', hv, mtimeLoop, hle', if_false]
        have hbad : e.flat.bad (pre ++ b!"/" ++ v) = false := rfl
        simp only [installCookie, hdest, hfs, hbad, hfr]
        rfl
      · cases h
      · cases h
      · rename_i hs
        exfalso
        simp only [installSingle] at hs
        split at hs
        · cases hs
        · split at hs
          · rename_i h1; simp at h1
          · split at hs
            · cases hs
            · split at hs
              · cases hs
              · split at hs
                · cases hs
                · cases hs
                · split at hs <;> cases hs

/-- Directories can be made where nothing stands in the way. -/
theorem mkdirs_free {d : Deny} {cwd : Path} {now : Nat} (hm : ∀ p, d.mkdir p = false) {bits : List Bytes} (hb : ∀ c ∈ bits, Plain c) {accum : Bytes} {a : Path} {t : Tree}
    (hw : t.Wf) (ha : Denotes cwd accum a) (hd : t.IsDir a) (hf : ∀ k, 0 < k → k ≤ bits.length → nodeFile (t (a ++ bits.take k)) = none) :
    ∃ t1, mkdirs d cwd now bits accum t = (t1, true) := by
  induction bits generalizing accum a t with
  | nil => exact ⟨t, rfl⟩
  | cons bit bits ih =>
    have hbit : ∀ c ∈ [bit], Plain c := fun c hc => hb c (by simp at hc; simp [hc])
    have hden : Denotes cwd (accum ++ b!"/" ++ bit) (a ++ [bit]) := by
      have := denotes_append ha (vs := [bit]) (by simp) hbit
      rwa [joinP_single] at this
    have hdl : (a ++ [bit]).dropLast = a := by simp
    have hr := (resolve_denotes hw hden).2 (by rw [hdl]; exact hd)
    have hfile := hf 1 (by omega) (by simp)
    simp only [List.take_succ_cons, List.take_zero] at hfile
    obtain ⟨t1, h1, h2, h3, h4⟩ : ∃ t1, t.mkdir d cwd now (accum ++ b!"/" ++ bit) = some t1 ∧ t1.Wf ∧ t1.IsDir (a ++ [bit]) ∧ ∀ q, nodeFile (t1 q) = nodeFile (t q) := by
      unfold Tree.mkdir
      rw [hr]
      dsimp only
      cases e1 : t (a ++ [bit]) with
      | some n =>
        cases n with
        | dir m => exact ⟨t, rfl, hw, ⟨m, e1⟩, fun _ => rfl⟩
        | file c m => rw [e1] at hfile; cases hfile
      | none =>
        dsimp only
        rw [hm, if_neg (by simp)]
        refine ⟨_, rfl, set_touch_wf hw (by simp) e1 (by rw [hdl]; exact hd) _ _, ?_, fun q => ?_⟩
        · rw [touch_dir]; exact ⟨now, set_same _ _ _⟩
        · rw [touch_file]
          by_cases hq : q = a ++ [bit]
          · subst hq; rw [set_same, e1]; rfl
          · rw [set_other hq]
    simp only [mkdirs, h1]
    refine ih (fun c hc => hb c (by simp [hc])) h2 hden h3 (fun k hk1 hk2 => ?_)
    rw [h4]
    have := hf (k + 1) (by omega) (by simpa using hk2)
    simpa using this

/-- Nothing stands in the way of a product that exists. -/
theorem single_free {pre : Bytes} {prePath : Path} {x : Ent} (hx : EntOk (e.inst pre) prePath x) (hpre : Denotes e.cwd pre prePath) {t : Tree} (hw : t.Wf) (now : Nat)
    (hap : Apart x.src x.dst) {c : Bytes} {m : Nat} (hsrc : t x.src = some (.file c m)) (hdst : ¬ t.IsDir x.dst) (hp : isCookie e.absOut (pathStr x.src) = true)
    (hmk : ∀ p, e.deny.mkdir p = false) (hcp : ∀ p q, e.deny.copy p q = none) (hdir : t.IsDir prePath) (hab : ∀ q, q <+: x.dst → q ≠ x.dst → nodeFile (t q) = none) :
    (∃ t2, installSingle (e.inst pre) x.key x.val true now t = .copied t2) ∨ installSingle (e.inst pre) x.key x.val true now t = .already t := by
  have hk := denotes_cstr hx.src
  obtain ⟨vs, last, hv, hl, e1, e2⟩ := hx.dst
  have hvl : ∀ c ∈ vs ++ [last], Plain c := by
    intro c hc
    rcases List.mem_append.mp hc with hc | hc
    · exact hv c hc
    · simp only [List.mem_singleton] at hc; subst hc; exact hl
  have hval : cstr x.val = x.val := by rw [e1]; exact cstr_eq_self (nul_joinP hvl)
  have hden : Denotes e.cwd (pre ++ b!"/" ++ x.val) x.dst := by rw [e1, e2]; exact denotes_append hpre (by simp) hvl
  have hst : t.stat e.cwd x.key = .ok (x.src, .file c m) := (stat_denotes hw hx.src).2 _ hsrc
  obtain ⟨t1, hm1⟩ : ∃ t1, mkdirs e.deny e.cwd now (destBits x.val) pre t = (t1, true) := by
    by_cases hvs : vs = []
    · subst hvs
      rw [e1, destBits_single hl]
      refine ⟨t, ?_⟩
      simp only [mkdirs, single_skips_any.mkdir_dot_ok hw hpre hdir]
    · rw [e1, destBits_join hvs hv hl]
      refine mkdirs_free hmk hv hw hpre hdir (fun k _ hk2 => hab _ ?_ ?_)
      · rw [e2]
        refine (List.prefix_append_right_inj prePath).mpr ((List.take_prefix k vs).trans (List.prefix_append _ _))
      · intro he
        have := congrArg List.length he
        rw [e2] at this
        simp at this
        omega
  obtain ⟨vs', last', hv', hl', e1', e2', hmade⟩ := single_mkdirs hx hpre hw hm1
  have hs1 : t1 x.src = some (.file c m) := by
    rw [made_apart hmade last' x.src (by rw [← e2']; exact hap.1)]; exact hsrc
  have hd1 : t1 x.dst = t x.dst := by
    have := made_below hmade last' []
    simpa [← e2'] using this
  have hpar : t1.IsDir x.dst.dropLast := by
    have hdl : x.dst.dropLast = prePath ++ vs' := by rw [e2', ← List.append_assoc]; simp
    rw [hdl]
    by_cases hvs : vs' = []
    · subst hvs
      rw [List.append_nil]
      obtain ⟨mp, hmp⟩ := hdir
      rcases hmade.kept _ _ hmp with h' | ⟨_, h', _⟩
      · exact ⟨mp, h'⟩
      · exact ⟨now, h'⟩
    · have hne := hmade.all vs'.length (List.length_pos_iff.mpr hvs) (Nat.le_refl _)
      rw [List.take_length] at hne
      have hnf : nodeFile (t (prePath ++ vs')) = none := hab _ (by rw [e2', ← List.append_assoc]; exact List.prefix_append _ _) (fun he => by
        have := congrArg List.length he
        rw [e2'] at this
        simp at this)
      cases et : t (prePath ++ vs') with
      | none =>
        rcases hmade.new _ et with h' | ⟨h', _⟩
        · exact (hne h').elim
        · exact ⟨now, h'⟩
      | some n =>
        cases n with
        | file c' m' => rw [et] at hnf; cases hnf
        | dir m' =>
          rcases hmade.kept _ _ et with h' | ⟨_, h', _⟩
          · exact ⟨m', h'⟩
          · exact ⟨now, h'⟩
  have hres := (resolve_denotes hmade.wf hden).2 hpar
  have hst1 : t1.statRes e.cwd x.key = .ok m := by
    have : t1.stat e.cwd x.key = .ok (x.src, .file c m) := (stat_denotes hmade.wf hx.src).2 _ hs1
    simp only [Tree.statRes, this]
    rfl
  have hcopied : frugalMtime (t1.statRes e.cwd) [x.key] (pre ++ b!"/" ++ x.val) = some true → ∃ t2, installSingle (e.inst pre) x.key x.val true now t = .copied t2 := by
    intro hfr
    have hdd : ∀ m', t1 x.dst ≠ some (.dir m') := fun m' h' => hdst ⟨m', by rw [← hd1]; exact h'⟩
    have hne : x.dst ≠ x.src := fun he => hap.1 (he ▸ List.prefix_refl _)
    obtain ⟨t2, h2⟩ : ∃ t2, cpFile t1 c x.src x.dst now = some t2 := by
      unfold cpFile
      cases ed : t1 x.dst with
      | none => exact ⟨_, rfl⟩
      | some n =>
        cases n with
        | dir m' => exact (hdd m' ed).elim
        | file c' m' => exact ⟨_, if_neg hne⟩
    refine ⟨t2, ?_⟩
    simp only [installSingle, TEnv.inst, hk, hval, hst, hp, hm1, hfr, copyNode, hres, hcp, h2]
    rfl
  cases ed : t1 x.dst with
  | none =>
    refine Or.inl (hcopied ?_)
    have : t1.statRes e.cwd (pre ++ b!"/" ++ x.val) = .enoent := by simp only [Tree.statRes, Tree.stat, hres, ed]
    simp only [frugalMtime, this]
  | some n =>
    have hstd := (stat_denotes hmade.wf hden).2 _ ed
    by_cases hle : m > n.mtime
    · refine Or.inl (hcopied ?_)
      have hstd' : t1.statRes e.cwd (pre ++ b!"/" ++ x.val) = .ok n.mtime := by simp only [Tree.statRes, hstd]
      simp only [frugalMtime, hstd', mtimeLoop, hst1]
      rw [if_pos hle]
    · right
      exact single_skips_any hx hpre hw now true hp hsrc (by rw [← hd1]; exact ed) (by simpa [Node.mtime] using hle)

/-- Installing a product on the tree is installing it without directories, unless something stands in the way. -/
theorem install_cases (hP : Placed e path tc reqs) {s s' : TStore} (hR : ReadyF t0 free e path reqs s.tree) {o : Bytes} (ho : o ∈ outsOf reqs) {ok : Bool} (h : tInstall e o s = (s', ok)) :
    (¬ free ∧ ok = false) ∨ (ReadyF t0 free e path reqs s'.tree ∧ installCookie e.flat o (s.flat e) = (s'.flat e, ok)) := by
  cases ok with
  | true => exact Or.inr (install_ok hP hR ho h)
  | false =>
    by_cases hf : free
    · right
      have hF := hR.open_ hf
      have h0 := h
      unfold tInstall at h
      split at h
      · cases h
      · rename_i pre hp
        split at h
        · cases h
        · rename_i x hfi
          have hx1 : x.1 = o := by simpa using List.find?_some hfi
          obtain ⟨o', v⟩ := x
          dsimp only at hx1 h
          subst hx1
          obtain ⟨hk, hne, hnd, hpr, prePath, hpre, hE⟩ := hP.dest o' ho pre v hp hfi
          have hko := hP.writes o' (writes_out ho).1
          have hap : Apart (path o') (path (pre ++ b!"/" ++ v)) := ⟨fun hh => hne (hP.apart _ _ hko hk hh).symm, fun hh => hne (hP.apart _ _ hk hko hh)⟩
          have hdest : e.flat.dest o' = some (pre ++ b!"/" ++ v) := by simp [InstCfg.dest, TEnv.flat, hp, hfi]
          cases en : s.tree (path o') with
          | none =>
            have hv := known_none hP hR hko en
            have hfs : (s.flat e).fs o' = none := hv
            have hst : ∃ x, s.tree.stat e.cwd o' = .error x := by
              cases er : s.tree.stat e.cwd o' with
              | error x => exact ⟨x, rfl⟩
              | ok y =>
                obtain ⟨q, n⟩ := y
                have := ((stat_denotes hR.wf (hP.denotes o' hko)).1 q n er).2
                rw [en] at this; cases this
            obtain ⟨x, hx⟩ := hst
            have hk' := denotes_cstr (hP.denotes o' hko)
            have hsi : installSingle (e.inst pre) o' v true s.now s.tree = .failed s.tree := by simp only [installSingle, TEnv.inst, hk', hx]
            rw [hsi] at h
            cases h
            refine ⟨hR, ?_⟩
            simp only [installCookie, hdest, hfs]
          | some n =>
            exfalso
            obtain ⟨c, m, rfl, -⟩ := known_file hP hR hko en
            rcases single_free (x := { key := o', val := v, src := path o', dst := path (pre ++ b!"/" ++ v) }) hE hpre hR.wf s.now hap en (hR.files _ hk) hpr hF.mkdir hF.copy
              (hF.prefix_ pre prePath hp hpre) (fun q hq hqn => by
                cases eq : s.tree q with
                | none => rfl
                | some n' =>
                  cases n' with
                  | dir _ => rfl
                  | file c' m' => exact (hF.above _ hk q hq hqn c' m' eq).elim) with ⟨t2, h2⟩ | h2
            · dsimp only at h2
              rw [h2] at h; cases h
            · dsimp only at h2
              rw [h2] at h; cases h
    · exact Or.inl ⟨hf, rfl⟩

/-! ## Times -/

theorem stat_dep (hP : Placed e path tc reqs) {t : Tree} (hR : ReadyF t0 free e path reqs t) {s : Bytes} (hs : e.known s = true) (m : Nat) :
    t.statRes e.cwd s = .ok m ↔ (t.view e.cwd e.known).stat s = .ok m := by
  have hd := hP.denotes s hs
  have h1 := stat_denotes hR.wf hd
  cases en : t (path s) with
  | some n =>
    obtain ⟨c, mc, rfl, hv⟩ := known_file hP hR hs en
    simp only [Tree.statRes, h1.2 _ en, FS.stat, hv]
    rfl
  | none =>
    have hv := known_none hP hR hs en
    simp only [FS.stat, hv, Tree.statRes]
    cases er : t.stat e.cwd s with
    | ok v =>
      obtain ⟨q, n⟩ := v
      have := (h1.1 q n er).2
      rw [en] at this; cases this
    | error x => cases x <;> simp

theorem stat_target (hP : Placed e path tc reqs) {t : Tree} (hR : ReadyF t0 free e path reqs t) {s : Bytes} (hw : Writes reqs s) :
    t.statRes e.cwd s = (t.view e.cwd e.known).stat s := by
  have hs := hP.writes s hw
  have hd := hP.denotes s hs
  cases en : t (path s) with
  | some n =>
    obtain ⟨c, mc, rfl, hv⟩ := known_file hP hR hs en
    have h' : (t.view e.cwd e.known).stat s = .ok mc := by simp only [FS.stat, hv]
    rw [h', (stat_dep hP hR hs mc).mpr h']
  | none =>
    have hv := known_none hP hR hs en
    have hr := (resolve_denotes hR.wf hd).2 (hR.dirs s hw)
    simp only [Tree.statRes, Tree.stat, hr, en, FS.stat, hv]

theorem mtimeLoop_congr {f g : Bytes → StatRes} {ds : List Bytes} (h : ∀ d ∈ ds, ∀ m, f d = .ok m ↔ g d = .ok m) (t : Nat) : mtimeLoop f t ds = mtimeLoop g t ds := by
  induction ds with
  | nil => rfl
  | cons d ds ih =>
    have h1 := h d (by simp)
    simp only [mtimeLoop, ih (fun d' hd' => h d' (by simp [hd']))]
    cases ef : f d with
    | ok a => rw [(h1 a).mp ef]
    | _ =>
      cases eg : g d with
      | ok b => rw [(h1 b).mpr eg] at ef; cases ef
      | _ => rfl

theorem frugal_ok (hP : Placed e path tc reqs) {s : TStore} (hR : ReadyF t0 free e path reqs s.tree) {o : Bytes} (hw : Writes reqs o) {ds : List Bytes} (hds : ∀ d ∈ ds, e.known d = true) :
    frugalMtime (s.stat e) ds o = frugalMtime (s.flat e).fs.stat ds o := by
  have h1 : s.stat e o = (s.flat e).fs.stat o := stat_target hP hR hw
  have h2 : ∀ t, mtimeLoop (s.stat e) t ds = mtimeLoop (s.flat e).fs.stat t ds := mtimeLoop_congr (fun d hd m => stat_dep hP hR (hds d hd) m)
  simp only [frugalMtime, h1, h2]

/-! ## The actions of a build -/

theorem flags_ok (hP : Placed e path tc reqs) {s : TStore} (hR : ReadyF t0 free e path reqs s.tree) {o : Bytes} (ho : o ∈ outsOf reqs) (F : List Bytes) :
    ReadyF t0 free e path reqs (tCheckFlags e o F s).1.tree ∧ checkFlags o F (s.flat e) = ((tCheckFlags e o F s).1.flat e, (tCheckFlags e o F s).2) := by
  have hw := (writes_out ho).2.1
  have hr : s.read e (flagsPath o) = (s.flat e).fs.content (flagsPath o) := read_ok (hP.writes _ hw)
  unfold tCheckFlags checkFlags
  rw [← hr]
  generalize frugalFlags (s.read e (flagsPath o)) true F = r
  obtain ⟨b, c⟩ := r
  cases b with
  | false => exact ⟨hR, rfl⟩
  | true =>
    cases c with
    | none => exact ⟨hR, rfl⟩
    | some rec =>
      obtain ⟨s', h1, h2, h3⟩ := write_ok hP hR hw rec (fun j hj he => (flags_ne_deps _ _ he).elim)
      dsimp only
      rw [h1]
      exact ⟨h2, by simp only [Option.getD_some, h3]⟩

theorem tLog_ok (hP : Placed e path tc reqs) {s : TStore} (hR : ReadyF t0 free e path reqs s.tree) {o : Bytes} (ho : o ∈ outsOf reqs) (x : Bytes) :
    ReadyF t0 free e path reqs (tLog e o x s).tree ∧ (tLog e o x s).flat e = writeLog o x (s.flat e) := by
  have hw := (writes_out ho).2.2
  unfold tLog writeLog
  split
  · exact remove_ok hP hR hw
  · obtain ⟨s', h1, h2, h3⟩ := write_ok hP hR hw (cstr x) (fun j hj he => (log_ne_deps _ _ he).elim)
    rw [h1]
    exact ⟨h2, h3⟩

theorem validate_ok (hP : Placed e path tc reqs) {s : TStore} (hR : ReadyF t0 free e path reqs s.tree) {j : CJob} (hj : CJobIn reqs j) :
    ReadyF t0 free e path reqs (tValidate e j s).1.tree ∧ validate j (s.flat e) = ((tValidate e j s).1.flat e, (tValidate e j s).2) := by
  have ho := cjob_out hj
  obtain ⟨h1, h2⟩ := flags_ok hP hR ho j.flags
  unfold tValidate validate
  rw [h2]
  cases ef : tCheckFlags e j.out j.flags s with
  | mk s1 b =>
    rw [ef] at h1
    dsimp only at h1 ⊢
    cases b with
    | true => exact ⟨h1, rfl⟩
    | false =>
      dsimp only
      have hwd : Writes reqs (depsPath j.out) := Or.inl ⟨j, hj, by simp⟩
      have hr : s1.read e (depsPath j.out) = (s1.flat e).fs.content (depsPath j.out) := read_ok (hP.writes _ hwd)
      rw [← hr]
      cases er : s1.read e (depsPath j.out) with
      | none => exact ⟨h1, rfl⟩
      | some text =>
        dsimp only
        have hk : ∀ d ∈ j.src :: readDeps text, e.known d = true := by
          intro d hd
          rcases List.mem_cons.mp hd with rfl | hd
          · exact hP.srcs j hj
          · exact h1.deps j hj text er d hd
        rw [← frugal_ok hP h1 (writes_out ho).1 hk]
        generalize frugalMtime (s1.stat e) (j.src :: readDeps text) j.out = r
        rcases r with _ | _ | _ <;> exact ⟨h1, rfl⟩

theorem linkCheck_ok (hP : Placed e path tc reqs) {s : TStore} (hR : ReadyF t0 free e path reqs s.tree) {j : LJob} (hj : .link j ∈ reqs) :
    ReadyF t0 free e path reqs (tLinkCheck e j s).1.tree ∧ linkCheck j (s.flat e) = ((tLinkCheck e j s).1.flat e, (tLinkCheck e j s).2) := by
  have ho := ljob_out hj
  obtain ⟨h1, h2⟩ := flags_ok hP hR ho j.flags
  unfold tLinkCheck linkCheck
  rw [h2]
  cases ef : tCheckFlags e j.out j.flags s with
  | mk s1 b =>
    rw [ef] at h1
    dsimp only at h1 ⊢
    cases b with
    | true => exact ⟨h1, rfl⟩
    | false =>
      dsimp only
      rw [← frugal_ok hP h1 (writes_out ho).1 (hP.linkSrcs j hj)]
      generalize frugalMtime (s1.stat e) j.srcs j.out = r
      rcases r with _ | _ | _ <;> exact ⟨h1, rfl⟩

theorem linkOp_ok (hP : Placed e path tc reqs) {s : TStore} (hR : ReadyF t0 free e path reqs s.tree) {j : LJob} (hj : .link j ∈ reqs) :
    ReadyF t0 free e path reqs (tLinkOp e tc j s).1.tree ∧ linkOp tc j (s.flat e) = ((tLinkOp e tc j s).1.flat e, (tLinkOp e tc j s).2) := by
  have ho := ljob_out hj
  have hw := (writes_out ho).1
  have hv : (s.flat e).fs = s.view e := rfl
  unfold tLinkOp linkOp
  simp only [hv]
  cases el : tc.link j.archive (s.view e) j.srcs j.flags with
  | some c =>
    dsimp only
    obtain ⟨s', h1, h2, h3⟩ := write_ok (s := (s.emit (.linked j.out j.srcs j.flags)).capture j.out (tc.linkDiag j.archive (s.view e) j.srcs j.flags)) hP hR hw c
      (fun i hi he => (hP.outs i hi _ ho he).elim)
    rw [h1]
    exact ⟨h2, by rw [h3]; rfl⟩
  | none =>
    dsimp only
    split
    · obtain ⟨h2, h3⟩ := remove_ok (s := (s.emit (.linked j.out j.srcs j.flags)).capture j.out (tc.linkDiag j.archive (s.view e) j.srcs j.flags)) hP hR hw
      exact ⟨h2, by rw [h3]; rfl⟩
    · exact ⟨hR, rfl⟩

theorem depsOp_ok (hP : Placed e path tc reqs) {s : TStore} (hR : ReadyF t0 free e path reqs s.tree) {j : CJob} (hj : CJobIn reqs j) (f : Bool) :
    ReadyF t0 free e path reqs (tDepsOp e tc j f s).1.tree ∧ depsOp tc j f (s.flat e) = ((tDepsOp e tc j f s).1.flat e, (tDepsOp e tc j f s).2) := by
  have hv : (s.flat e).fs = s.view e := rfl
  unfold tDepsOp depsOp
  simp only [hv]
  cases ed : tc.deps (s.view e) j.src j.flags with
  | none => exact ⟨hR, rfl⟩
  | some items =>
    dsimp only
    obtain ⟨s', h1, h2, h3⟩ := write_ok hP hR (w := depsPath j.out) (Or.inl ⟨j, hj, by simp⟩) (depsText (ruleText items)) (fun i hi he => hP.tools _ _ _ _ ed)
    rw [h1]
    exact ⟨h2, by rw [Option.getD_some, h3]⟩

theorem objOp_ok (hP : Placed e path tc reqs) {s : TStore} (hR : ReadyF t0 free e path reqs s.tree) {j : CJob} (hj : CJobIn reqs j) (f : Bool) :
    ReadyF t0 free e path reqs (tObjOp e tc j f s).1.tree ∧ objOp tc j f (s.flat e) = ((tObjOp e tc j f s).1.flat e, (tObjOp e tc j f s).2) := by
  have ho := cjob_out hj
  have hw := (writes_out ho).1
  have hv : (s.flat e).fs = s.view e := rfl
  unfold tObjOp objOp
  simp only [hv]
  cases el : tc.obj (s.view e) j.src j.flags with
  | some c =>
    dsimp only
    obtain ⟨s', h1, h2, h3⟩ := write_ok (s := (s.emit (.compiled j.src j.out j.flags)).capture j.out (tc.diag (s.view e) j.src j.flags)) hP hR hw c
      (fun i hi he => (hP.outs i hi _ ho he).elim)
    rw [h1]
    exact ⟨h2, by rw [h3]; rfl⟩
  | none =>
    dsimp only
    split
    · obtain ⟨h2, h3⟩ := remove_ok (s := (s.emit (.compiled j.src j.out j.flags)).capture j.out (tc.diag (s.view e) j.src j.flags)) hP hR hw
      exact ⟨h2, by rw [h3]; rfl⟩
    · exact ⟨hR, rfl⟩

theorem logOp_ok (hP : Placed e path tc reqs) {s : TStore} (hR : ReadyF t0 free e path reqs s.tree) {j : CJob} (hj : CJobIn reqs j) (f : Bool) :
    ReadyF t0 free e path reqs (tLogOp e j f s).1.tree ∧ logOp j f (s.flat e) = ((tLogOp e j f s).1.flat e, (tLogOp e j f s).2) := by
  obtain ⟨h1, h2⟩ := tLog_ok hP hR (cjob_out hj) (s.buf j.out)
  exact ⟨h1, congrArg (·, f) h2.symm⟩

theorem instOp_ok (hP : Placed e path tc reqs) {s : TStore} (hR : ReadyF t0 free e path reqs s.tree) {j : CJob} (hj : CJobIn reqs j) (f : Bool) :
    (¬ free ∧ (tInstOp e j f s).2 = true) ∨
    ReadyF t0 free e path reqs (tInstOp e j f s).1.tree ∧ instOp e.flat j f (s.flat e) = ((tInstOp e j f s).1.flat e, (tInstOp e j f s).2) := by
  cases f with
  | true => exact Or.inr ⟨hR, rfl⟩
  | false =>
    cases ei : tInstall e j.out s with
    | mk s' ok =>
      rcases install_cases hP hR (cjob_out hj) ei with ⟨h1, rfl⟩ | ⟨h1, h2⟩
      · left; exact ⟨h1, by simp [tInstOp, ei]⟩
      · right
        simp only [tInstOp, instOp, ei, h2]
        exact ⟨h1, rfl⟩

/-! ## Whole builds -/

/-- What is left to do is part of what was asked for. -/
inductive CfgIn (reqs : List Req) : TCfg → Prop where
  | idle {rest s} (h : ∀ r ∈ rest, r ∈ reqs) : CfgIn reqs (.idle rest s)
  | validating {todo tasks rest s} (h : ∀ r ∈ rest, r ∈ reqs) (h1 : ∀ j ∈ todo, CJobIn reqs j) (h2 : ∀ j ∈ tasks, CJobIn reqs j) : CfgIn reqs (.validating todo tasks rest s)
  | pooling {tasks rest p} (h : ∀ r ∈ rest, r ∈ reqs) (h2 : ∀ j ∈ tasks, CJobIn reqs j) : CfgIn reqs (.pooling tasks rest p)
  | linking {j rest s} (h : ∀ r ∈ rest, r ∈ reqs) (h1 : .link j ∈ reqs) : CfgIn reqs (.linking j rest s)
  | linkRan {ok j rest s} (h : ∀ r ∈ rest, r ∈ reqs) (h1 : .link j ∈ reqs) : CfgIn reqs (.linkRan ok j rest s)
  | linked {j rest s} (h : ∀ r ∈ rest, r ∈ reqs) (h1 : .link j ∈ reqs) : CfgIn reqs (.linked j rest s)
  | finished {ok s} : CfgIn reqs (.finished ok s)

theorem after_flat (rest : List Req) (r : TStore × Bool) : (tAfter rest r).flat e = afterStep rest (r.1.flat e, r.2) := by
  obtain ⟨s, b⟩ := r
  cases b <;> rfl

theorem after_in {rest : List Req} (h : ∀ r ∈ rest, r ∈ reqs) (r : TStore × Bool) : CfgIn reqs (tAfter rest r) := by
  obtain ⟨s, b⟩ := r
  cases b
  · exact .finished
  · exact .idle h

theorem after_store (rest : List Req) (r : TStore × Bool) : (tAfter rest r).store = r.1 := by
  obtain ⟨s, b⟩ := r
  cases b <;> rfl

theorem already_ok {s : TStore} {o : Bytes} (hk : e.known (logPath o) = true) : (s.already e o).flat e = (s.flat e).emit (.already o ((s.flat e).fs.content (logPath o))) := by
  rw [← read_ok hk]; rfl

/-- One action of the main thread. -/
theorem seq_ok {n : Nat} (hP : Placed e path tc reqs) {a b : TCfg} (hR : ReadyF t0 free e path reqs a.store.tree) (hc : CfgIn reqs a) (h : tSeqNext e tc a = some b) :
    (¬ free ∧ Doomed n b) ∨ (ReadyF t0 free e path reqs b.store.tree ∧ CfgIn reqs b ∧ seqNext tc e.flat (a.flat e) = some (b.flat e)) := by
  cases hc with
  | @idle rest s h0 =>
    cases rest with
    | nil => simp only [tSeqNext, Option.some.injEq] at h; subst h; exact Or.inr ⟨hR, .finished, rfl⟩
    | cons r rest =>
      have hrest : ∀ r ∈ rest, r ∈ reqs := fun r hr => h0 r (by simp [hr])
      cases r with
      | compile jobs =>
        simp only [tSeqNext, Option.some.injEq] at h; subst h
        exact Or.inr ⟨hR, .validating hrest (fun j hj => ⟨jobs, h0 _ (by simp), hj⟩) (by simp), rfl⟩
      | link j =>
        have hj : .link j ∈ reqs := h0 _ (by simp)
        obtain ⟨h1, h2⟩ := linkCheck_ok hP hR hj
        simp only [tSeqNext] at h
        simp only [TCfg.flat, seqNext, TCfg.store] at h1 h2 ⊢
        rw [h2]
        cases el : tLinkCheck e j s with
        | mk s1 d =>
          rw [el] at h h1
          cases d with
          | true => simp only [Option.some.injEq] at h; subst h; exact Or.inr ⟨h1, .linking hrest hj, rfl⟩
          | false =>
            simp only [Option.some.injEq] at h; subst h
            dsimp only at h1 ⊢
            cases ei : tInstall e j.out (s1.already e j.out) with
            | mk s2 ok =>
              rcases install_cases (s := s1.already e j.out) hP h1 (ljob_out hj) ei with ⟨hf, rfl⟩ | ⟨h3, h4⟩
              · exact Or.inl ⟨hf, .finished s2⟩
              · rw [already_ok (hP.writes _ (writes_out (ljob_out hj)).2.2)] at h4
                refine Or.inr ⟨by cases ok <;> exact h3, after_in hrest _, ?_⟩
                rw [h4]; cases ok <;> rfl
  | @validating todo tasks rest s h0 h1 h2 =>
    cases todo with
    | nil => simp only [tSeqNext, Option.some.injEq] at h; subst h; exact Or.inr ⟨hR, .pooling h0 h2, rfl⟩
    | cons j todo =>
      have hj := h1 j (by simp)
      have htodo : ∀ j ∈ todo, CJobIn reqs j := fun j hj => h1 j (by simp [hj])
      obtain ⟨h3, h4⟩ := validate_ok hP hR hj
      simp only [tSeqNext] at h
      simp only [TCfg.flat, seqNext, TCfg.store] at h3 h4 ⊢
      rw [h4]
      cases el : tValidate e j s with
      | mk s1 d =>
        rw [el] at h h3
        cases d with
        | compile =>
          simp only [Option.some.injEq] at h; subst h
          refine Or.inr ⟨h3, .validating h0 htodo (fun i hi => ?_), rfl⟩
          rcases List.mem_append.mp hi with hi | hi
          · exact h2 i hi
          · simp only [List.mem_singleton] at hi; subst hi; exact hj
        | err => simp only [Option.some.injEq] at h; subst h; exact Or.inr ⟨h3, .finished, rfl⟩
        | skip =>
          dsimp only at h h3 ⊢
          cases ei : tInstall e j.out (s1.already e j.out) with
          | mk s2 ok =>
            rw [ei] at h
            rcases install_cases (s := s1.already e j.out) hP h3 (cjob_out hj) ei with ⟨hf, rfl⟩ | ⟨h5, h6⟩
            · simp only [Option.some.injEq] at h; subst h; exact Or.inl ⟨hf, .finished s2⟩
            · rw [already_ok (hP.writes _ (writes_out (cjob_out hj)).2.2)] at h6
              rw [h6]
              cases ok with
              | false => simp only [Option.some.injEq] at h; subst h; exact Or.inr ⟨h5, .finished, rfl⟩
              | true => simp only [Option.some.injEq] at h; subst h; exact Or.inr ⟨h5, .validating h0 htodo h2, rfl⟩
  | pooling => simp [tSeqNext] at h
  | @linking j rest s h0 hj =>
    obtain ⟨h1, h2⟩ := linkOp_ok hP hR hj
    simp only [tSeqNext, Option.some.injEq] at h; subst h
    refine Or.inr ⟨h1, .linkRan h0 hj, ?_⟩
    simp only [TCfg.flat, seqNext, TCfg.store] at h2 ⊢
    rw [h2]
  | @linkRan ok j rest s h0 hj =>
    obtain ⟨h1, h2⟩ := tLog_ok hP hR (ljob_out hj) (s.buf j.out)
    cases ok with
    | false =>
      simp only [tSeqNext, Option.some.injEq] at h; subst h
      exact Or.inr ⟨h1, .finished, congrArg (fun x => some (Cfg.finished false x)) h2.symm⟩
    | true =>
      simp only [tSeqNext, Option.some.injEq] at h; subst h
      exact Or.inr ⟨h1, .linked h0 hj, congrArg (fun x => some (Cfg.linked j rest x)) h2.symm⟩
  | @linked j rest s h0 hj =>
    simp only [tSeqNext, Option.some.injEq] at h; subst h
    cases ei : tInstall e j.out s with
    | mk s2 ok =>
      rcases install_cases hP hR (ljob_out hj) ei with ⟨hf, rfl⟩ | ⟨h3, h4⟩
      · exact Or.inl ⟨hf, .finished s2⟩
      · refine Or.inr ⟨by cases ok <;> exact h3, after_in h0 _, ?_⟩
        simp only [TCfg.flat, seqNext, TCfg.store] at h4 ⊢
        rw [h4]; cases ok <;> rfl
  | finished => simp [tSeqNext] at h

/-- One action of a task. -/
theorem task_ok (hP : Placed e path tc reqs) {s : TStore} (hR : ReadyF t0 free e path reqs s.tree) {tasks : List CJob} (ht : ∀ j ∈ tasks, CJobIn reqs j) (i k : Nat) (f : Bool) :
    ((tTaskProg e tc tasks i)[k]? = none ∧ (taskProg tc e.flat tasks i)[k]? = none) ∨
    ∃ op op', (tTaskProg e tc tasks i)[k]? = some op ∧ (taskProg tc e.flat tasks i)[k]? = some op' ∧
      ((¬ free ∧ k = 3 ∧ (op f s).2 = true) ∨ (ReadyF t0 free e path reqs (op f s).1.tree ∧ op' f (s.flat e) = ((op f s).1.flat e, (op f s).2))) := by
  unfold tTaskProg taskProg
  cases ej : tasks[i]? with
  | none => left; simp
  | some j =>
    have hj := ht j (List.mem_of_getElem? ej)
    match k with
    | 0 => exact Or.inr ⟨_, _, rfl, rfl, Or.inr (depsOp_ok hP hR hj f)⟩
    | 1 => exact Or.inr ⟨_, _, rfl, rfl, Or.inr (objOp_ok hP hR hj f)⟩
    | 2 => exact Or.inr ⟨_, _, rfl, rfl, Or.inr (logOp_ok hP hR hj f)⟩
    | 3 =>
      refine Or.inr ⟨_, _, rfl, rfl, ?_⟩
      rcases instOp_ok hP hR hj f with h | h
      · exact Or.inl ⟨h.1, rfl, h.2⟩
      · exact Or.inr h
    | k + 4 => left; simp [tTask, compileTask]

theorem pool_ok {n : Nat} (hP : Placed e path tc reqs) {tasks : List CJob} {rest : List Req} {p p' : Pool TStore} (hR : ReadyF t0 free e path reqs p.store.tree) (ht : ∀ j ∈ tasks, CJobIn reqs j) {w : Nat} (hw : w < n)
    (h : workStep (tTaskProg e tc tasks) p w = some p') :
    (¬ free ∧ Doomed n (.pooling tasks rest p')) ∨ (ReadyF t0 free e path reqs p'.store.tree ∧ workStep (taskProg tc e.flat tasks) (p.as (TStore.flat e)) w = some (p'.as (TStore.flat e))) := by
  have hpc : (p.as (TStore.flat e)).pc w = p.pc w := rfl
  unfold workStep at h ⊢
  rw [hpc]
  cases epc : p.pc w with
  | top => rw [epc] at h; simp only [Option.some.injEq] at h; subst h; exact Or.inr ⟨hR, rfl⟩
  | lock =>
    rw [epc] at h
    dsimp only at h ⊢
    split at h
    · rename_i ho
      simp only [Option.some.injEq] at h; subst h
      exact Or.inr ⟨hR, if_pos ho⟩
    · cases h
  | scan =>
    rw [epc] at h
    dsimp only at h ⊢
    have hs : (p.as (TStore.flat e)).started = p.started := rfl
    rw [hs]
    cases ef : p.started.findIdx? (· == false) with
    | none => rw [ef] at h; simp only [Option.some.injEq] at h; subst h; exact Or.inr ⟨hR, rfl⟩
    | some i => rw [ef] at h; simp only [Option.some.injEq] at h; subst h; exact Or.inr ⟨hR, rfl⟩
  | mark i => rw [epc] at h; simp only [Option.some.injEq] at h; subst h; exact Or.inr ⟨hR, rfl⟩
  | unlockRun i => rw [epc] at h; simp only [Option.some.injEq] at h; subst h; exact Or.inr ⟨hR, rfl⟩
  | unlockNone => rw [epc] at h; simp only [Option.some.injEq] at h; subst h; exact Or.inr ⟨hR, rfl⟩
  | run i k f =>
    rw [epc] at h
    dsimp only at h ⊢
    rcases task_ok hP hR ht i k f with ⟨h1, h2⟩ | ⟨op, op', h1, h2, h3⟩
    · rw [h1] at h
      rw [h2]
      simp only [Option.some.injEq] at h; subst h
      exact Or.inr ⟨hR, rfl⟩
    · rw [h1] at h
      rw [h2]
      simp only [Option.some.injEq] at h; subst h
      rcases h3 with ⟨hf, rfl, h3⟩ | ⟨h3, h4⟩
      · refine Or.inl ⟨hf, .failed w i hw ?_⟩
        simp [Pool.setPc, h3]
      · refine Or.inr ⟨h3, ?_⟩
        have hst : (p.as (TStore.flat e)).store = p.store.flat e := rfl
        dsimp only
        rw [hst, h4]
        rfl
  | setErr => rw [epc] at h; simp only [Option.some.injEq] at h; subst h; exact Or.inr ⟨hR, rfl⟩
  | done => rw [epc] at h; cases h

/-- A build that is certain to fail stays so. -/
theorem doomed_step {n : Nat} {a b : TCfg} (hd : Doomed n a) (h : TBuildNext e tc n a b) : Doomed n b := by
  cases h with
  | seq h => cases hd <;> simp [tSeqNext] at h
  | tick t ht => 
    cases hd with
    | finished s => exact .finished _
    | error h => exact .error h
    | failed w i hw h => exact .failed w i hw h
    | setErr w hw h => exact .setErr w hw h
  | @join tasks rest p hj =>
    cases hd with
    | error h => simp only [tAfter, Pool.waitOk, h]; exact .finished _
    | failed w i hw h => rw [hj w hw] at h; cases h
    | setErr w hw h => rw [hj w hw] at h; cases h
  | @pool tasks rest p p' hp =>
    cases hp with
    | env s' h => exact h.elim
    | work v hv h =>
      have herr : p.error = true → p'.error = true := by
        intro he
        unfold workStep at h
        cases epc : p.pc v <;> rw [epc] at h <;> dsimp only at h
        case lock => split at h <;> simp only [Option.some.injEq, reduceCtorEq] at h; subst h; exact he
        case scan => split at h <;> simp only [Option.some.injEq] at h <;> subst h <;> exact he
        case run => split at h <;> simp only [Option.some.injEq] at h <;> subst h <;> exact he
        case done => cases h
        case setErr => simp only [Option.some.injEq] at h; subst h; rfl
        all_goals (simp only [Option.some.injEq] at h; subst h; exact he)
      have hother : ∀ w, w ≠ v → p'.pc w = p.pc w := by
        intro w hwv
        unfold workStep at h
        cases epc : p.pc v <;> rw [epc] at h <;> dsimp only at h
        case lock => split at h <;> simp only [Option.some.injEq, reduceCtorEq] at h; subst h; simp [Pool.setPc, hwv]
        case scan => split at h <;> simp only [Option.some.injEq] at h <;> subst h <;> simp [Pool.setPc, hwv]
        case run => split at h <;> simp only [Option.some.injEq] at h <;> subst h <;> simp [Pool.setPc, hwv]
        case done => cases h
        all_goals (simp only [Option.some.injEq] at h; subst h; simp [Pool.setPc, hwv])
      cases hd with
      | error he => exact .error (herr he)
      | failed w i hw hpc =>
        by_cases hwv : w = v
        · subst hwv
          unfold workStep at h
          rw [hpc] at h
          dsimp only at h
          have hn : (tTaskProg e tc tasks i)[4]? = none := by
            unfold tTaskProg
            cases tasks[i]? <;> rfl
          rw [hn] at h
          simp only [Option.some.injEq] at h; subst h
          exact .setErr w hw (by simp [Pool.setPc])
        · exact .failed w i hw ((hother w hwv).trans hpc)
      | setErr w hw hpc =>
        by_cases hwv : w = v
        · subst hwv
          unfold workStep at h
          rw [hpc] at h
          simp only [Option.some.injEq] at h; subst h
          exact .error rfl
        · exact .setErr w hw ((hother w hwv).trans hpc)

theorem withNow_ok {a : TCfg} (hc : CfgIn reqs a) (t : Nat) : CfgIn reqs (a.withNow t) ∧ (a.withNow t).store.tree = a.store.tree ∧ (a.withNow t).flat e = (a.flat e).withNow t ∧ (a.flat e).store.now = a.store.now := by
  cases hc with
  | idle h => exact ⟨.idle h, rfl, rfl, rfl⟩
  | validating h h1 h2 => exact ⟨.validating h h1 h2, rfl, rfl, rfl⟩
  | pooling h h2 => exact ⟨.pooling h h2, rfl, rfl, rfl⟩
  | linking h h1 => exact ⟨.linking h h1, rfl, rfl, rfl⟩
  | linkRan h h1 => exact ⟨.linkRan h h1, rfl, rfl, rfl⟩
  | linked h h1 => exact ⟨.linked h h1, rfl, rfl, rfl⟩
  | finished => exact ⟨.finished, rfl, rfl, rfl⟩

theorem refines {n : Nat} (hP : Placed e path tc reqs) {s : TStore} (hR : ReadyF t0 free e path reqs s.tree) {cfg : TCfg} (h : TBuildReaches e tc n reqs s cfg) :
    (¬ free ∧ Doomed n cfg) ∨ (ReadyF t0 free e path reqs cfg.store.tree ∧ CfgIn reqs cfg ∧ BuildReaches tc e.flat n reqs (s.flat e) (cfg.flat e)) := by
  unfold TBuildReaches at h
  induction h with
  | refl => exact Or.inr ⟨hR, .idle (fun _ hr => hr), .refl _⟩
  | @tail b c h r ih =>
    rcases ih with ⟨hf, hd⟩ | ⟨h1, h2, h3⟩
    · exact Or.inl ⟨hf, doomed_step hd r⟩
    · cases r with
      | seq hn =>
        rcases seq_ok hP h1 h2 hn with hd | ⟨h4, h5, h6⟩
        · exact Or.inl hd
        · exact Or.inr ⟨h4, h5, .tail h3 (.seq h6)⟩
      | tick t ht =>
        obtain ⟨h4, h5, h6, h7⟩ := withNow_ok (e := e) h2 t
        exact Or.inr ⟨by rw [h5]; exact h1, h4, by rw [h6]; exact .tail h3 (.tick t (by rw [h7]; exact ht))⟩
      | @pool tasks rest p p' hp =>
        cases h2 with
        | pooling h4 h5 =>
          cases hp with
          | env s' hh => exact hh.elim
          | work w hw hh =>
            rcases pool_ok (rest := rest) hP h1 h5 hw hh with hd | ⟨h6, h7⟩
            · exact Or.inl hd
            · exact Or.inr ⟨h6, .pooling h4 h5, .tail h3 (.pool (.work w hw h7))⟩
      | @join tasks rest p hj =>
        cases h2 with
        | pooling h4 h5 =>
          refine Or.inr ⟨by rw [after_store]; exact h1, after_in h4 _, ?_⟩
          rw [after_flat]
          exact .tail h3 (.join (p := p.as (TStore.flat e)) hj)

theorem Ready.start {t : Tree} (h : Ready free e path reqs t) : ReadyF t free e path reqs t :=
  { h with frame := ⟨fun _ _ => rfl, fun _ _ _ _ => Iff.rfl, fun _ h => h⟩ }

/-- **C109.** Whatever a build does on a file system with directories, the build without directories does to what is seen of it, unless something stands in the way of installing, and then the
build is certain to fail. -/
theorem C109_refines {n : Nat} (hP : Placed e path tc reqs) {s : TStore} (hR : Ready free e path reqs s.tree) {cfg : TCfg} (h : TBuildReaches e tc n reqs s cfg) :
    (¬ free ∧ Doomed n cfg) ∨ (Ready free e path reqs cfg.store.tree ∧ BuildReaches tc e.flat n reqs (s.flat e) (cfg.flat e)) :=
  (refines hP hR.start h).imp_right fun x => ⟨x.1.toReady, x.2.2⟩

/-- **C109.** A build that succeeds on a file system with directories is a successful build without them, so all that is known of those holds of it. -/
theorem C109_succeeds {n : Nat} (hP : Placed e path tc reqs) {s s' : TStore} (hR : Ready free e path reqs s.tree) (h : TBuildReaches e tc n reqs s (.finished true s')) :
    Ready free e path reqs s'.tree ∧ BuildReaches tc e.flat n reqs (s.flat e) (.finished true (s'.flat e)) := by
  rcases C109_refines hP hR h with ⟨-, hd⟩ | h'
  · cases hd
  · exact h'

/-- **C109.** Nothing else on the file system changes. -/
theorem C109_frame {n : Nat} (hP : Placed e path tc reqs) {s : TStore} (hR : Ready free e path reqs s.tree) {cfg : TCfg} (h : TBuildReaches e tc n reqs s cfg) :
    (¬ free ∧ Doomed n cfg) ∨ Frame e path reqs s.tree cfg.store.tree :=
  (refines hP hR.start h).imp_right fun x => x.1.frame

/-! ## The other way round -/

theorem flat_seq_some {a : TCfg} {B : Cfg} (h : seqNext tc e.flat (a.flat e) = some B) : ∃ b, tSeqNext e tc a = some b := by
  cases a with
  | idle rest s =>
    cases rest with
    | nil => exact ⟨_, rfl⟩
    | cons r rest =>
      cases r with
      | compile jobs => exact ⟨_, rfl⟩
      | link j =>
        simp only [tSeqNext]
        cases tLinkCheck e j s with
        | mk s1 d => cases d <;> exact ⟨_, rfl⟩
  | validating todo tasks rest s =>
    cases todo with
    | nil => exact ⟨_, rfl⟩
    | cons j todo =>
      simp only [tSeqNext]
      cases tValidate e j s with
      | mk s1 d =>
        cases d with
        | compile => exact ⟨_, rfl⟩
        | err => exact ⟨_, rfl⟩
        | skip =>
          dsimp only
          cases tInstall e j.out (s1.already e j.out) with
          | mk s2 ok => cases ok <;> exact ⟨_, rfl⟩
  | pooling => cases h
  | linking j rest s => exact ⟨_, rfl⟩
  | linkRan ok j rest s => cases ok <;> exact ⟨_, rfl⟩
  | linked j rest s => exact ⟨_, rfl⟩
  | finished => cases h

theorem flat_work_some {tasks : List CJob} {p : Pool TStore} {w : Nat} {P : Pool Store} (h : workStep (taskProg tc e.flat tasks) (p.as (TStore.flat e)) w = some P) :
    ∃ p', workStep (tTaskProg e tc tasks) p w = some p' := by
  have hpc : (p.as (TStore.flat e)).pc w = p.pc w := rfl
  unfold workStep at h ⊢
  rw [hpc] at h
  cases epc : p.pc w <;> rw [epc] at h <;> dsimp only at h ⊢
  case lock =>
    have ho : (p.as (TStore.flat e)).owner = p.owner := rfl
    rw [ho] at h
    by_cases hp : p.owner = none
    · exact ⟨_, if_pos hp⟩
    · rw [if_neg hp] at h; cases h
  case scan => split <;> exact ⟨_, rfl⟩
  case run i k f => split <;> exact ⟨_, rfl⟩
  case done => cases h
  all_goals exact ⟨_, rfl⟩

theorem flat_store (a : TCfg) : (a.flat e).store.now = a.store.now := by cases a <;> rfl

/-- **C109.** And if nothing stands in the way, whatever the build without directories does is done on the file system with directories as well. -/
theorem C109_complete {n : Nat} (hP : Placed e path tc reqs) {s : TStore} (hR : Ready True e path reqs s.tree) {C : Cfg} (h : BuildReaches tc e.flat n reqs (s.flat e) C) :
    ∃ cfg, TBuildReaches e tc n reqs s cfg ∧ cfg.flat e = C := by
  unfold BuildReaches at h
  induction h with
  | refl => exact ⟨_, .refl _, rfl⟩
  | @tail B C h r ih =>
    obtain ⟨b, h1, rfl⟩ := ih
    rcases refines hP hR.start h1 with ⟨hf, -⟩ | ⟨h2, h3, -⟩
    · exact (hf trivial).elim
    generalize hB : b.flat e = B at r
    cases r with
    | seq hn =>
      subst hB
      obtain ⟨c, hc⟩ := flat_seq_some hn
      rcases seq_ok (n := n) hP h2 h3 hc with ⟨hf, -⟩ | ⟨-, -, h4⟩
      · exact (hf trivial).elim
      · rw [hn] at h4
        exact ⟨c, .tail h1 (.seq hc), (Option.some.inj h4).symm⟩
    | tick t ht =>
      subst hB
      exact ⟨b.withNow t, .tail h1 (.tick t (by rw [← flat_store (e := e)]; exact ht)), (withNow_ok h3 t).2.2.1⟩
    | @pool tasks rest P P' hp =>
      cases h3 with
      | @pooling tasks' rest' p h4 h5 =>
        simp only [TCfg.flat, Cfg.pooling.injEq] at hB
        obtain ⟨rfl, rfl, rfl⟩ := hB
        cases hp with
        | env s' hh => exact hh.elim
        | work w hw hh =>
          obtain ⟨p', hp'⟩ := flat_work_some hh
          rcases pool_ok (rest := rest') hP h2 h5 hw hp' with ⟨hf, -⟩ | ⟨-, h6⟩
          · exact (hf trivial).elim
          · rw [hh] at h6
            exact ⟨.pooling tasks' rest' p', .tail h1 (.pool (.work w hw hp')), by rw [Option.some.inj h6]; rfl⟩
      | _ => cases hB
    | @join tasks rest P hj =>
      cases h3 with
      | @pooling tasks' rest' p h4 h5 =>
        simp only [TCfg.flat, Cfg.pooling.injEq] at hB
        obtain ⟨rfl, rfl, rfl⟩ := hB
        exact ⟨_, .tail h1 (.join hj), after_flat _ _⟩
      | _ => cases hB

end Bob
