import Verif.Model.Install
import Verif.Lemmas.Base
/-!
# Lemmas about paths, trees and installing
-/

namespace Bob

/-! ## Paths as strings -/

/-- An ordinary file name. -/
def Plain (c : Bytes) : Prop := c ≠ [] ∧ c ≠ b!"." ∧ c ≠ b!".." ∧ SLASH ∉ c ∧ NUL ∉ c

/-- Names separated by slashes. -/
def joinP (ks : List Bytes) : Bytes := [SLASH].intercalate ks

theorem joinP_cons (c : Bytes) {ks : List Bytes} (h : ks ≠ []) : joinP (c :: ks) = c ++ b!"/" ++ joinP ks := by
  cases ks with
  | nil => exact (h rfl).elim
  | cons d ks => simp [joinP, List.intercalate, List.intersperse]

theorem joinP_single (c : Bytes) : joinP [c] = c := by simp [joinP, List.intercalate, List.intersperse]

theorem joinP_append {ks vs : List Bytes} (hk : ks ≠ []) (hv : vs ≠ []) : joinP (ks ++ vs) = joinP ks ++ b!"/" ++ joinP vs := by
  induction ks with
  | nil => exact (hk rfl).elim
  | cons c ks ih =>
    by_cases h : ks = []
    · subst h
      rw [List.singleton_append, joinP_cons c hv, joinP_single]
    · rw [List.cons_append, joinP_cons c (by simp [h]), joinP_cons c h, ih h]
      simp

theorem joinP_ne_nil {ks : List Bytes} (h : ks ≠ []) (hp : ∀ c ∈ ks, Plain c) : joinP ks ≠ [] := by
  cases ks with
  | nil => exact (h rfl).elim
  | cons c ks =>
    have hc := (hp c (by simp)).1
    by_cases hk : ks = []
    · subst hk; rw [joinP_single]; exact hc
    · rw [joinP_cons c hk]; simp

theorem nul_joinP {ks : List Bytes} (hp : ∀ c ∈ ks, Plain c) : NUL ∉ joinP ks := by
  induction ks with
  | nil => simp [joinP, List.intercalate]
  | cons c ks ih =>
    have hc := (hp c (by simp)).2.2.2.2
    by_cases hk : ks = []
    · subst hk; rw [joinP_single]; exact hc
    · rw [joinP_cons c hk]
      have := ih (fun d hd => hp d (by simp [hd]))
      simp only [List.mem_append, not_or]
      exact ⟨⟨hc, by decide⟩, this⟩

theorem strsepAll_joinP {ks : List Bytes} (h : ks ≠ []) (hp : ∀ c ∈ ks, Plain c) : strsepAll SLASH (joinP ks) = ks := by
  induction ks with
  | nil => exact (h rfl).elim
  | cons c ks ih =>
    have hc := (hp c (by simp)).2.2.2.1
    by_cases hk : ks = []
    · subst hk; rw [joinP_single]; exact strsepAll_field _ _ hc
    · rw [joinP_cons c hk]
      have := strsepAll_field_sep SLASH c (joinP ks) hc
      rw [show c ++ b!"/" ++ joinP ks = c ++ SLASH :: joinP ks by simp, this, ih hk (fun d hd => hp d (by simp [hd]))]

theorem joinP_head {ks : List Bytes} (h : ks ≠ []) (hp : ∀ c ∈ ks, Plain c) : ∃ b bs, joinP ks = b :: bs ∧ b ≠ SLASH := by
  cases ks with
  | nil => exact (h rfl).elim
  | cons c ks =>
    obtain ⟨h1, _, _, h4, _⟩ := hp c (by simp)
    cases c with
    | nil => exact (h1 rfl).elim
    | cons b bs =>
      have hb : b ≠ SLASH := fun e => h4 (by simp [e])
      by_cases hk : ks = []
      · subst hk; exact ⟨b, bs, joinP_single _, hb⟩
      · exact ⟨b, bs ++ b!"/" ++ joinP ks, joinP_cons _ hk, hb⟩

theorem joinP_last {ks : List Bytes} (h : ks ≠ []) (hp : ∀ c ∈ ks, Plain c) : ∃ bs b, joinP ks = bs ++ [b] ∧ b ≠ SLASH := by
  induction ks with
  | nil => exact (h rfl).elim
  | cons c ks ih =>
    by_cases hk : ks = []
    · subst hk
      obtain ⟨h1, _, _, h4, _⟩ := hp c (by simp)
      rw [joinP_single]
      refine ⟨c.dropLast, c.getLast h1, (List.dropLast_concat_getLast h1).symm, fun e => h4 ?_⟩
      rw [← e]; exact List.getLast_mem h1
    · obtain ⟨bs, b, e, hb⟩ := ih hk (fun d hd => hp d (by simp [hd]))
      exact ⟨c ++ b!"/" ++ bs, b, by rw [joinP_cons c hk, e]; simp, hb⟩

/-- A string names a path: relative to the working directory, or from the root. -/
def Denotes (cwd : Path) (s : Bytes) (p : Path) : Prop :=
  ∃ ks, ks ≠ [] ∧ (∀ c ∈ ks, Plain c) ∧ (s = joinP ks ∧ p = cwd ++ ks ∨ s = b!"/" ++ joinP ks ∧ p = ks)

theorem denotes_append {cwd : Path} {s : Bytes} {p : Path} (h : Denotes cwd s p) {vs : List Bytes} (hv : vs ≠ []) (hp : ∀ c ∈ vs, Plain c) :
    Denotes cwd (s ++ b!"/" ++ joinP vs) (p ++ vs) := by
  obtain ⟨ks, hk, hks, h | h⟩ := h
  · refine ⟨ks ++ vs, by simp [hk], ?_, Or.inl ⟨by rw [joinP_append hk hv, h.1], by rw [h.2]; simp⟩⟩
    intro c hc
    rcases List.mem_append.mp hc with hc | hc
    · exact hks c hc
    · exact hp c hc
  · refine ⟨ks ++ vs, by simp [hk], ?_, Or.inr ⟨by rw [joinP_append hk hv, h.1]; simp, by rw [h.2]⟩⟩
    intro c hc
    rcases List.mem_append.mp hc with hc | hc
    · exact hks c hc
    · exact hp c hc

theorem denotes_cstr {cwd : Path} {s : Bytes} {p : Path} (h : Denotes cwd s p) : cstr s = s := by
  obtain ⟨ks, _, hks, h | h⟩ := h
  · exact cstr_eq_self (h.1 ▸ nul_joinP hks)
  · refine cstr_eq_self ?_
    rw [h.1]
    simp only [List.mem_append, not_or]
    exact ⟨by decide, nul_joinP hks⟩

theorem denotes_ne_nil {cwd : Path} {s : Bytes} {p : Path} (h : Denotes cwd s p) : p ≠ [] := by
  obtain ⟨ks, hk, _, h | h⟩ := h
  · rw [h.2]; simp [hk]
  · rw [h.2]; exact hk

/-! ## `dirname` -/

theorem rstrip_of_last {bs : Bytes} {b : UInt8} (hb : b ≠ SLASH) : rstrip (bs ++ [b]) = bs ++ [b] := by
  simp [rstrip, hb]

theorem rstrip_slash {bs : Bytes} {b : UInt8} (hb : b ≠ SLASH) : rstrip (bs ++ [b] ++ b!"/") = bs ++ [b] := by
  simp [rstrip, hb]

theorem dropWhile_not_slash {l rest : Bytes} (h : SLASH ∉ l) : (l ++ SLASH :: rest).dropWhile (· != SLASH) = SLASH :: rest := by
  induction l with
  | nil => simp
  | cons c l ih =>
    have hc : c ≠ SLASH := fun e => h (by simp [e])
    rw [List.cons_append, List.dropWhile_cons_of_pos (by simpa using hc)]
    exact ih (fun hm => h (by simp [hm]))

theorem toLastSlash_eq {x l : Bytes} (h : SLASH ∉ l) : toLastSlash (x ++ b!"/" ++ l) = x ++ b!"/" := by
  unfold toLastSlash
  rw [show (x ++ b!"/" ++ l).reverse = l.reverse ++ SLASH :: x.reverse by simp, dropWhile_not_slash (by simpa using h)]
  simp

theorem dirname_join {vs : List Bytes} {last : Bytes} (hv : vs ≠ []) (hp : ∀ c ∈ vs, Plain c) (hl : Plain last) :
    dirname (joinP (vs ++ [last])) = joinP vs := by
  have hall : ∀ c ∈ vs ++ [last], Plain c := by
    intro c hc
    rcases List.mem_append.mp hc with hc | hc
    · exact hp c hc
    · simp only [List.mem_singleton] at hc; subst hc; exact hl
  obtain ⟨bs, b, e, hb⟩ := joinP_last (ks := vs ++ [last]) (by simp) hall
  obtain ⟨cs, c, e', hc⟩ := joinP_last hv hp
  have h1 : rstrip (joinP (vs ++ [last])) = joinP (vs ++ [last]) := by rw [e]; exact rstrip_of_last hb
  have h2 : joinP (vs ++ [last]) = joinP vs ++ b!"/" ++ last := by rw [joinP_append hv (by simp), joinP_single]
  have h3 : toLastSlash (joinP (vs ++ [last])) = joinP vs ++ b!"/" := by rw [h2]; exact toLastSlash_eq hl.2.2.2.1
  have h4 : rstrip (joinP vs ++ b!"/") = joinP vs := by rw [e']; exact rstrip_slash hc
  have h5 : ¬ joinP (vs ++ [last]) = [] := by rw [h2]; simp
  have h6 : ¬ SLASH ∉ joinP (vs ++ [last]) := by rw [h2]; simp
  have h7 : ¬ joinP vs = [] := joinP_ne_nil hv hp
  simp only [dirname, h1, h5, if_false, h6, h3, h4, h7]

theorem dirname_single {last : Bytes} (hl : Plain last) : dirname last = b!"." := by
  have h1 : rstrip last = last := by
    have := joinP_last (ks := [last]) (by simp) (by simpa using hl)
    rw [joinP_single] at this
    obtain ⟨bs, b, e, hb⟩ := this
    rw [e]; exact rstrip_of_last hb
  have h2 : ¬ last = [] := hl.1
  have h3 : SLASH ∉ last := hl.2.2.2.1
  simp only [dirname, h1, h2, if_false, h3, not_false_eq_true, if_true]

theorem destBits_join {vs : List Bytes} {last : Bytes} (hv : vs ≠ []) (hp : ∀ c ∈ vs, Plain c) (hl : Plain last) :
    destBits (joinP (vs ++ [last])) = vs := by
  unfold destBits
  rw [dirname_join hv hp hl, strsepAll_joinP hv hp]
  rw [List.filter_eq_self]
  intro c hc
  simpa using (hp c hc).1

theorem destBits_single {last : Bytes} (hl : Plain last) : destBits (joinP ([] ++ [last])) = [b!"."] := by
  unfold destBits
  rw [List.nil_append, joinP_single, dirname_single hl]
  decide

/-! ## Trees -/

def Tree.IsDir (t : Tree) (p : Path) : Prop := ∃ m, t p = some (.dir m)

/-- A tree: there is a root, and everything is in a directory. -/
structure Tree.Wf (t : Tree) : Prop where
  root : t.IsDir []
  parent : ∀ p c, t (p ++ [c]) ≠ none → t.IsDir p

theorem Tree.IsDir.ne {t : Tree} {p : Path} (h : t.IsDir p) : t p ≠ none := by
  obtain ⟨m, h⟩ := h; rw [h]; simp

theorem wf_up {t : Tree} (hw : t.Wf) (p r : Path) (hr : r ≠ []) (h : t (p ++ r) ≠ none) : t.IsDir p := by
  generalize hn : r.length = n
  induction n generalizing r with
  | zero => exact (hr (List.length_eq_zero_iff.mp hn)).elim
  | succ n ih =>
    have e := List.dropLast_concat_getLast hr
    have h1 : t.IsDir (p ++ r.dropLast) := hw.parent _ (r.getLast hr) (by rw [List.append_assoc, e]; exact h)
    by_cases hr' : r.dropLast = []
    · rw [hr'] at h1; simpa using h1
    · exact ih r.dropLast hr' h1.ne (by simp [hn])

theorem wf_up' {t : Tree} (hw : t.Wf) {p q : Path} (hpq : p <+: q) (h : t.IsDir q) : t.IsDir p := by
  obtain ⟨r, rfl⟩ := hpq
  by_cases hr : r = []
  · subst hr; simpa using h
  · exact wf_up hw p r hr h.ne

theorem wf_below_file {t : Tree} (hw : t.Wf) {p : Path} (h : ¬ t.IsDir p) (r : Path) (hr : r ≠ []) : t (p ++ r) = none := by
  cases e : t (p ++ r) with
  | none => rfl
  | some n => exact (h (wf_up hw p r hr (by rw [e]; simp))).elim

theorem walk_plain {t : Tree} {cs : List Bytes} (hp : ∀ c ∈ cs, Plain c) (cur : Path) :
    (∀ p, t.walk cur cs = .ok p → p = cur ++ cs ∧ ∀ k, k < cs.length → t.IsDir (cur ++ cs.take k)) ∧
    ((∀ k, k < cs.length → t.IsDir (cur ++ cs.take k)) → t.walk cur cs = .ok (cur ++ cs)) := by
  induction cs generalizing cur with
  | nil =>
    refine ⟨fun p h => ?_, fun _ => by simp [Tree.walk]⟩
    simp only [Tree.walk, Except.ok.injEq] at h
    exact ⟨by simp [h], fun k hk => by simp at hk⟩
  | cons c cs ih =>
    obtain ⟨h1, h2, h3, _, _⟩ := hp c (by simp)
    have step : ∀ m, t cur = some (.dir m) → t.walk cur (c :: cs) = t.walk (cur ++ [c]) cs := by
      intro m hm
      simp [Tree.walk, hm, h1, h2, h3]
    have ih' := ih (fun d hd => hp d (by simp [hd])) (cur ++ [c])
    constructor
    · intro p h
      cases e : t cur with
      | none => simp [Tree.walk, e] at h
      | some n =>
        cases n with
        | file _ _ => simp [Tree.walk, e] at h
        | dir m =>
          rw [step m e] at h
          obtain ⟨r1, r2⟩ := ih'.1 p h
          refine ⟨by rw [r1]; simp, fun k hk => ?_⟩
          cases k with
          | zero => exact ⟨m, by simpa using e⟩
          | succ k => simpa using r2 k (by simpa using hk)
    · intro h
      obtain ⟨m, hm⟩ := h 0 (by simp)
      rw [List.take_zero, List.append_nil] at hm
      rw [step m hm]
      rw [ih'.2 (fun k hk => by simpa using h (k + 1) (by simpa using hk))]
      simp

theorem resolve_denotes {t : Tree} (hw : t.Wf) {cwd : Path} {s : Bytes} {p : Path} (h : Denotes cwd s p) :
    (∀ q, t.resolve cwd s = .ok q → q = p ∧ t.IsDir p.dropLast) ∧ (t.IsDir p.dropLast → t.resolve cwd s = .ok p) := by
  obtain ⟨ks, hk, hks, ⟨rfl, rfl⟩ | ⟨rfl, rfl⟩⟩ := h
  · obtain ⟨b, bs, e, hb⟩ := joinP_head hk hks
    have hres : t.resolve cwd (joinP ks) = t.walk cwd ks := by
      have := strsepAll_joinP hk hks
      rw [e] at this ⊢
      simp only [Tree.resolve, if_neg hb, this]
    have hlen : 0 < ks.length := List.length_pos_iff.mpr hk
    rw [hres]
    constructor
    · intro q hq
      obtain ⟨h1, h2⟩ := (walk_plain hks cwd).1 q hq
      refine ⟨h1, ?_⟩
      have := h2 (ks.length - 1) (by omega)
      rwa [List.dropLast_append_of_ne_nil hk, List.dropLast_eq_take]
    · intro hd
      refine (walk_plain hks cwd).2 (fun k hkl => wf_up' hw ?_ hd)
      rw [List.dropLast_append_of_ne_nil hk, List.dropLast_eq_take]
      refine (List.prefix_append_right_inj cwd).mpr ?_
      exact List.take_prefix_take_left (by omega)
  · have hres : t.resolve cwd (b!"/" ++ joinP p) = t.walk [] p := by
      have h1 := strsepAll_joinP hk hks
      have h2 : strsepAll SLASH (b!"/" ++ joinP p) = [] :: p := by
        rw [← h1]
        simp [strsepAll, h1]
      show t.walk (if SLASH = SLASH then [] else cwd) (strsepAll SLASH (b!"/" ++ joinP p)) = _
      rw [h2]
      obtain ⟨m, hm⟩ := hw.root
      simp [Tree.walk, hm]
    have hlen : 0 < p.length := List.length_pos_iff.mpr hk
    rw [hres]
    constructor
    · intro q hq
      obtain ⟨h1, h2⟩ := (walk_plain hks []).1 q hq
      refine ⟨by simpa using h1, ?_⟩
      have := h2 (p.length - 1) (by omega)
      rw [List.dropLast_eq_take]; simpa using this
    · intro hd
      have := (walk_plain (t := t) hks []).2 (fun k hkl => wf_up' hw ?_ hd)
      · simpa using this
      · rw [List.dropLast_eq_take, List.nil_append]
        exact List.take_prefix_take_left (by omega)

theorem dropLast_isDir {t : Tree} (hw : t.Wf) {p : Path} (hp : p ≠ []) (h : t p ≠ none) : t.IsDir p.dropLast := by
  rw [← List.dropLast_concat_getLast hp] at h
  exact hw.parent _ _ h

theorem stat_denotes {t : Tree} (hw : t.Wf) {cwd : Path} {s : Bytes} {p : Path} (h : Denotes cwd s p) :
    (∀ q n, t.stat cwd s = .ok (q, n) → q = p ∧ t p = some n) ∧ (∀ n, t p = some n → t.stat cwd s = .ok (p, n)) := by
  have hr := resolve_denotes hw h
  constructor
  · intro q n hq
    unfold Tree.stat at hq
    cases e : t.resolve cwd s with
    | error => simp [e] at hq
    | ok q' =>
      obtain ⟨rfl, _⟩ := hr.1 q' e
      simp only [e] at hq
      cases e2 : t q' with
      | none => simp [e2] at hq
      | some n' =>
        simp only [e2, Except.ok.injEq, Prod.mk.injEq] at hq
        exact ⟨hq.1.symm, by rw [hq.2]⟩
  · intro n hn
    have := hr.2 (dropLast_isDir hw (denotes_ne_nil h) (by rw [hn]; simp))
    simp [Tree.stat, this, hn]

/-! ## Creating directories -/

structure Made (now : Nat) (t t' : Tree) (a : Path) (bits : List Bytes) : Prop where
  kept : ∀ q n, t q = some n → t' q = some n ∨ (n.isDir = true ∧ t' q = some (.dir now) ∧ q <+: a ++ bits)
  new : ∀ q, t q = none → t' q = none ∨ (t' q = some (.dir now) ∧ ∃ k, 0 < k ∧ k ≤ bits.length ∧ q = a ++ bits.take k)
  all : ∀ k, 0 < k → k ≤ bits.length → t' (a ++ bits.take k) ≠ none
  wf : t'.Wf
  idle : (∀ k, 0 < k → k ≤ bits.length → t (a ++ bits.take k) ≠ none) → t' = t

theorem made_nil {now : Nat} {t : Tree} (hw : t.Wf) (a : Path) : Made now t t a [] :=
  ⟨fun _ _ h => Or.inl h, fun _ h => Or.inl h, fun k h1 h2 => by simp at h2; omega, hw, fun _ => rfl⟩

theorem set_touch_wf {t : Tree} (hw : t.Wf) {p : Path} (hp : p ≠ []) (hn : t p = none) (hd : t.IsDir p.dropLast) (n : Node) (now : Nat) :
    ((t.set p n).touch p.dropLast now).Wf := by
  have key : ∀ q, q ≠ p → t.IsDir q → ((t.set p n).touch p.dropLast now).IsDir q := by
    intro q hq hq'
    obtain ⟨m, hm⟩ := hq'
    simp only [Tree.touch, Tree.set, hq, if_false, Tree.IsDir, hm]
    by_cases h : q = p.dropLast
    · simp [h]
    · simp [h]
  have hpd : p ≠ p.dropLast := by
    intro h
    have := congrArg List.length h
    have := List.length_pos_iff.mpr hp
    simp at *; omega
  refine ⟨key [] (fun h => hp h.symm) hw.root, fun q c h => ?_⟩
  by_cases hqc : q ++ [c] = p
  · have : q = p.dropLast := by rw [← hqc]; simp
    rw [this]
    exact key _ (fun h => hpd h.symm) hd
  · have hq2 : t (q ++ [c]) ≠ none := by
      simp only [Tree.touch, Tree.set, hqc, if_false] at h
      split at h
      · intro e; rw [e] at h; simp at h
      · exact h
    have hdq := hw.parent q c hq2
    exact key q (fun e => by rw [e, Tree.IsDir, hn] at hdq; obtain ⟨m, hm⟩ := hdq; cases hm) hdq

theorem made_one {d : Deny} {cwd : Path} {now : Nat} {t t' : Tree} (hw : t.Wf) {s : Bytes} {a : Path} {bit : Bytes}
    (h : Denotes cwd s (a ++ [bit])) (hm : t.mkdir d cwd now s = some t') : Made now t t' a [bit] := by
  unfold Tree.mkdir at hm
  cases e : t.resolve cwd s with
  | error => simp [e] at hm
  | ok p =>
    obtain ⟨rfl, hd⟩ := (resolve_denotes hw h).1 p e
    simp only [e] at hm
    have hone : ∀ k, 0 < k → k ≤ [bit].length → [bit].take k = [bit] := by
      intro k h1 h2
      have : k = 1 := by simp at h2; omega
      subst this; rfl
    cases e2 : t (a ++ [bit]) with
    | some n =>
      simp only [e2, Option.some.injEq] at hm
      subst hm
      refine ⟨fun _ _ h => Or.inl h, fun _ h => Or.inl h, fun k h1 h2 => ?_, hw, fun _ => rfl⟩
      rw [hone k h1 h2, e2]; simp
    | none =>
      simp only [e2] at hm
      split at hm
      · cases hm
      · injection hm with hm
        have hne : a ++ [bit] ≠ (a ++ [bit]).dropLast := by
          intro h
          have := congrArg List.length h
          simp at this
        subst hm
        refine ⟨?_, ?_, ?_, set_touch_wf hw (by simp) e2 hd _ _, ?_⟩
        · intro q n hq
          have hqp : q ≠ a ++ [bit] := fun h => by rw [h, e2] at hq; cases hq
          by_cases h : q = (a ++ [bit]).dropLast
          · obtain ⟨m, hm⟩ := hd
            rw [← h, hq] at hm
            injection hm with hm
            subst hm
            right
            refine ⟨rfl, by simp [Tree.touch, Tree.set, ← h, hqp, hq], ?_⟩
            rw [h]; exact List.dropLast_prefix _
          · left
            unfold Tree.touch Tree.set
            rw [if_neg h, if_neg hqp, hq]
        · intro q hq
          by_cases hqp : q = a ++ [bit]
          · right
            refine ⟨?_, 1, by omega, by simp, by simp [hqp]⟩
            rw [hqp]
            unfold Tree.touch Tree.set
            rw [if_neg hne, if_pos rfl]
          · left
            unfold Tree.touch Tree.set
            by_cases h : q = (a ++ [bit]).dropLast
            · rw [if_pos h, if_neg hqp, hq]; rfl
            · rw [if_neg h, if_neg hqp, hq]
        · intro k h1 h2
          rw [hone k h1 h2]
          unfold Tree.touch Tree.set
          rw [if_neg hne, if_pos rfl]; simp
        · intro hall
          have := hall 1 (by omega) (by simp)
          simp [e2] at this

theorem made_trans {now : Nat} {t t1 t2 : Tree} {a : Path} {bit : Bytes} {bits : List Bytes} (h1 : Made now t t1 a [bit])
    (h2 : Made now t1 t2 (a ++ [bit]) bits) : Made now t t2 a (bit :: bits) := by
  have e : a ++ bit :: bits = a ++ [bit] ++ bits := by simp
  have pre1 : ∀ {q : Path}, q <+: a ++ [bit] → q <+: a ++ bit :: bits := by
    intro q hq
    rw [e]; exact hq.trans (List.prefix_append _ _)
  refine ⟨?_, ?_, ?_, h2.wf, ?_⟩
  · intro q n hq
    rcases h1.kept q n hq with h | ⟨hn, h, hp⟩
    · rcases h2.kept q n h with h' | ⟨hn, h', hp⟩
      · exact Or.inl h'
      · exact Or.inr ⟨hn, h', by rw [e]; exact hp⟩
    · rcases h2.kept q _ h with h' | ⟨_, h', hp'⟩
      · exact Or.inr ⟨hn, h', pre1 hp⟩
      · exact Or.inr ⟨hn, h', pre1 hp⟩
  · intro q hq
    rcases h1.new q hq with h | ⟨h, k, hk1, hk2, rfl⟩
    · rcases h2.new q h with h' | ⟨h', k, hk1, hk2, rfl⟩
      · exact Or.inl h'
      · exact Or.inr ⟨h', k + 1, by omega, by simpa using hk2, by simp⟩
    · have hk : k = 1 := by simp at hk2; omega
      subst hk
      right
      refine ⟨?_, 1, by omega, by simp, by simp⟩
      rcases h2.kept _ _ h with h' | ⟨_, h', _⟩ <;> exact h'
  · intro k hk1 hk2
    cases k with
    | zero => omega
    | succ k =>
      rw [List.take_succ_cons]
      by_cases hk : k = 0
      · subst hk
        have := h1.all 1 (by omega) (by simp)
        cases e2 : t1 (a ++ [bit].take 1) with
        | none => exact (this e2).elim
        | some n =>
          rcases h2.kept _ _ e2 with h' | ⟨_, h', _⟩
          · simp at h' ⊢; rw [h']; simp
          · simp at h' ⊢; rw [h']; simp
      · have := h2.all k (by omega) (by simpa using hk2)
        simpa using this
  · intro hall
    have e1 : t1 = t := h1.idle (fun k hk1 hk2 => by
      have hk : k = 1 := by simp at hk2; omega
      subst hk
      have := hall 1 (by omega) (by simp)
      simpa using this)
    rw [e1] at h2
    exact h2.idle (fun k hk1 hk2 => by
      have := hall (k + 1) (by omega) (by simpa using hk2)
      simpa using this)

theorem mkdirs_made {d : Deny} {cwd : Path} {now : Nat} {bits : List Bytes} (hb : ∀ c ∈ bits, Plain c) {accum : Bytes} {a : Path} {t t' : Tree}
    (hw : t.Wf) (ha : Denotes cwd accum a) (h : mkdirs d cwd now bits accum t = (t', true)) : Made now t t' a bits := by
  induction bits generalizing accum a t with
  | nil =>
    simp only [mkdirs, Prod.mk.injEq, and_true] at h
    subst h
    exact made_nil hw a
  | cons bit bits ih =>
    simp only [mkdirs] at h
    have hbit := hb bit (by simp)
    have hd : Denotes cwd (accum ++ b!"/" ++ bit) (a ++ [bit]) := by
      have := denotes_append ha (vs := [bit]) (by simp) (by simpa using hbit)
      rwa [joinP_single] at this
    cases e : t.mkdir d cwd now (accum ++ b!"/" ++ bit) with
    | none => rw [e] at h; simp at h
    | some t1 =>
      simp only [e] at h
      have m1 := made_one hw hd e
      exact made_trans m1 (ih (fun c hc => hb c (by simp [hc])) m1.wf hd h)

/-- When all directories exist, making them succeeds. -/
theorem mkdirs_exist {d : Deny} {cwd : Path} {now : Nat} {bits : List Bytes} (hb : ∀ c ∈ bits, Plain c) {accum : Bytes} {a : Path} {t : Tree}
    (hw : t.Wf) (ha : Denotes cwd accum a) (hall : ∀ k, 0 < k → k ≤ bits.length → t (a ++ bits.take k) ≠ none) :
    mkdirs d cwd now bits accum t = (t, true) := by
  induction bits generalizing accum a with
  | nil => rfl
  | cons bit bits ih =>
    have hbit := hb bit (by simp)
    have hd : Denotes cwd (accum ++ b!"/" ++ bit) (a ++ [bit]) := by
      have := denotes_append ha (vs := [bit]) (by simp) (by simpa using hbit)
      rwa [joinP_single] at this
    have h1 : t (a ++ [bit]) ≠ none := by simpa using hall 1 (by omega) (by simp)
    have hres := (resolve_denotes hw hd).2 (dropLast_isDir hw (by simp) h1)
    have hmk : t.mkdir d cwd now (accum ++ b!"/" ++ bit) = some t := by
      cases e : t (a ++ [bit]) with
      | none => exact (h1 e).elim
      | some n => simp only [Tree.mkdir, hres, e]
    simp only [mkdirs, hmk]
    exact ih (fun c hc => hb c (by simp [hc])) hd (fun k hk1 hk2 => by
      have := hall (k + 1) (by omega) (by simpa using hk2)
      simpa using this)

theorem strsep_dot {ks : List Bytes} (hk : ks ≠ []) (hks : ∀ c ∈ ks, Plain c) : strsepAll SLASH (joinP ks ++ b!"/" ++ b!".") = ks ++ [b!"."] := by
  induction ks with
  | nil => exact (hk rfl).elim
  | cons c ks ih =>
    have hc := (hks c (by simp)).2.2.2.1
    by_cases h : ks = []
    · subst h
      rw [joinP_single, show c ++ b!"/" ++ b!"." = c ++ SLASH :: b!"." by simp, strsepAll_field_sep _ _ _ hc]
      rfl
    · rw [joinP_cons c h, show c ++ b!"/" ++ joinP ks ++ b!"/" ++ b!"." = c ++ SLASH :: (joinP ks ++ b!"/" ++ b!".") by simp,
        strsepAll_field_sep _ _ _ hc, ih h (fun d hd => hks d (by simp [hd]))]
      rfl

theorem walk_dot {t : Tree} {ks : List Bytes} (hks : ∀ c ∈ ks, Plain c) (cur : Path) (q : Path) (h : t.walk cur (ks ++ [b!"."]) = .ok q) :
    q = cur ++ ks ∧ t.IsDir (cur ++ ks) := by
  induction ks generalizing cur with
  | nil =>
    cases e : t cur with
    | none => simp [Tree.walk, e] at h
    | some n =>
      cases n with
      | file _ _ => simp [Tree.walk, e] at h
      | dir m =>
        simp [Tree.walk, e] at h
        exact ⟨by simp [h], m, by simpa using e⟩
  | cons c ks ih =>
    obtain ⟨h1, h2, h3, _, _⟩ := hks c (by simp)
    cases e : t cur with
    | none => simp [Tree.walk, e] at h
    | some n =>
      cases n with
      | file _ _ => simp [Tree.walk, e] at h
      | dir m =>
        have : t.walk cur (c :: ks ++ [b!"."]) = t.walk (cur ++ [c]) (ks ++ [b!"."]) := by
          simp [Tree.walk, e, h1, h2, h3]
        rw [this] at h
        have := ih (fun d hd => hks d (by simp [hd])) (cur ++ [c]) h
        simpa using this

theorem walk_dot_ok {t : Tree} {ks : List Bytes} (hks : ∀ c ∈ ks, Plain c) (cur : Path) (h : ∀ k, k ≤ ks.length → t.IsDir (cur ++ ks.take k)) :
    t.walk cur (ks ++ [b!"."]) = .ok (cur ++ ks) := by
  induction ks generalizing cur with
  | nil =>
    obtain ⟨m, hm⟩ := h 0 (by simp)
    simp only [List.take_nil, List.append_nil] at hm
    simp [Tree.walk, hm]
  | cons c ks ih =>
    obtain ⟨h1, h2, h3, _, _⟩ := hks c (by simp)
    obtain ⟨m, hm⟩ := h 0 (by simp)
    simp only [List.take_zero, List.append_nil] at hm
    have : t.walk cur (c :: ks ++ [b!"."]) = t.walk (cur ++ [c]) (ks ++ [b!"."]) := by
      simp [Tree.walk, hm, h1, h2, h3]
    rw [this, ih (fun d hd => hks d (by simp [hd])) (cur ++ [c]) (fun k hk => by simpa using h (k + 1) (by simpa using hk))]
    simp

theorem resolve_dot_walk {t : Tree} (hw : t.Wf) {cwd : Path} {s : Bytes} {a : Path} (ha : Denotes cwd s a) :
    ∃ cur ks, a = cur ++ ks ∧ (∀ c ∈ ks, Plain c) ∧ t.resolve cwd (s ++ b!"/" ++ b!".") = t.walk cur (ks ++ [b!"."]) := by
  obtain ⟨ks, hk, hks, ⟨rfl, rfl⟩ | ⟨rfl, rfl⟩⟩ := ha
  · refine ⟨cwd, ks, rfl, hks, ?_⟩
    obtain ⟨b, bs, e, hb⟩ := joinP_head hk hks
    rw [← strsep_dot hk hks, e]
    simp only [List.cons_append, Tree.resolve, if_neg hb]
  · refine ⟨[], a, rfl, hks, ?_⟩
    have hs : strsepAll SLASH (b!"/" ++ joinP a ++ b!"/" ++ b!".") = [] :: (a ++ [b!"."]) := by
      rw [← strsep_dot hk hks]
      simp [strsepAll]
    show t.walk (if SLASH = SLASH then [] else cwd) (strsepAll SLASH (b!"/" ++ joinP a ++ b!"/" ++ b!".")) = _
    rw [hs]
    obtain ⟨m, hm⟩ := hw.root
    simp [Tree.walk, hm]

theorem resolve_dot {t : Tree} (hw : t.Wf) {cwd : Path} {s : Bytes} {a : Path} (ha : Denotes cwd s a) (hd : t.IsDir a) :
    t.resolve cwd (s ++ b!"/" ++ b!".") = .ok a := by
  obtain ⟨cur, ks, rfl, hks, e⟩ := resolve_dot_walk hw ha
  rw [e]
  refine walk_dot_ok hks cur (fun k _ => wf_up' hw ?_ hd)
  exact (List.prefix_append_right_inj cur).mpr (List.take_prefix _ _)

/-- `<prefix>/.` -/
theorem mkdir_dot {d : Deny} {cwd : Path} {now : Nat} {accum : Bytes} {a : Path} {t t' : Tree} (hw : t.Wf) (ha : Denotes cwd accum a)
    (h : t.mkdir d cwd now (accum ++ b!"/" ++ b!".") = some t') : t' = t ∧ t.IsDir a := by
  obtain ⟨cur, ks, rfl, hks, e⟩ := resolve_dot_walk hw ha
  unfold Tree.mkdir at h
  rw [e] at h
  cases e : t.walk cur (ks ++ [b!"."]) with
  | error => rw [e] at h; simp at h
  | ok q =>
    obtain ⟨rfl, m, hm⟩ := walk_dot hks cur q e
    rw [e] at h
    simp only [hm, Option.some.injEq] at h
    exact ⟨h.symm, m, hm⟩

end Bob
