import Verif.Props.Parse
import Verif.Spec.FlPrec
/-!
# Operators and the tables of the parser
-/

namespace Bob.Parse

/-- How tightly a token binds that may follow an expression. -/
def tokLevel (t : Nat) : Nat :=
  bif Nat.beq t 32 then 6
  else bif Nat.beq t 33 || Nat.beq t 34 || Nat.beq t 35 then 5
  else bif Nat.beq t 30 || Nat.beq t 36 then 4
  else bif Nat.beq t 24 || Nat.beq t 25 || Nat.beq t 37 || Nat.beq t 38 || Nat.beq t 39 || Nat.beq t 40 then 3
  else bif Nat.beq t 41 then 2
  else bif Nat.beq t 42 || Nat.beq t 43 then 1
  else bif Nat.beq t 9 || Nat.beq t 13 || Nat.beq t 44 then 7
  else 0

def opSyms : List Nat := [32, 41, 92, 93, 94, 95]

def symLevel (s : Nat) : Nat :=
  bif Nat.beq s 32 then 6
  else bif Nat.beq s 92 then 5
  else bif Nat.beq s 93 then 4
  else bif Nat.beq s 94 then 3
  else bif Nat.beq s 41 then 2
  else bif Nat.beq s 95 then 1
  else 0

def isReduceOf (A : Nat) : List Act → Bool
  | [.reduce B _ _] => Nat.beq A B
  | _ => false

/-- After `e op e`, at state `q2`. -/
def chkAfter (X q2 : Nat) : Bool :=
  Nat.beq q2 0 || (List.range 60).all (fun t => Nat.beq (tokLevel t) 0 ||
    (!isReduceOf 96 (actions q2 t) || Nat.ble (tokLevel t) (symLevel X)) && (Nat.beq (edge q2 t) 0 || Nat.blt (symLevel X) (tokLevel t)))

def chkAfterOp (X q1 : Nat) : Bool := Nat.beq q1 0 || chkAfter X (edge q1 78)

def chkUn (q2 : Nat) : Bool :=
  Nat.beq q2 0 || (List.range 60).all (fun t => !isReduceOf 91 (actions q2 t) || Nat.beq (tokLevel t) 0)

def chkUnOp (q1 : Nat) : Bool := Nat.beq q1 0 || chkUn (edge q1 78)

def chkExpr (q e : Nat) : Bool :=
  (Nat.beq e 0 || opSyms.all fun X => chkAfterOp X (edge e X)) && chkUnOp (edge q 90)

set_option maxRecDepth 100000 in
theorem chk_prec : ((List.range 336).all fun q => Nat.beq q 0 || chkExpr q (edge q 78)) = true := by decide +kernel

theorem prec_state {q : Nat} (h : Live q) :
    (∀ X ∈ opSyms, edge q 78 ≠ 0 → edge (edge q 78) X ≠ 0 → edge (edge (edge q 78) X) 78 ≠ 0 → ∀ t < 60, tokLevel t ≠ 0 →
      (∀ n pid, actions (edge (edge (edge q 78) X) 78) t = [.reduce 96 n pid] → tokLevel t ≤ symLevel X) ∧
      (edge (edge (edge (edge q 78) X) 78) t ≠ 0 → symLevel X < tokLevel t)) ∧
    (edge q 90 ≠ 0 → edge (edge q 90) 78 ≠ 0 → ∀ t < 60, ∀ n pid, actions (edge (edge q 90) 78) t = [.reduce 91 n pid] → tokLevel t = 0) := by
  have := List.all_eq_true.1 chk_prec q (List.mem_range.2 h.2)
  simp only [chkExpr, chkAfterOp, chkUnOp, chkUn, chkAfter, Bool.or_eq_true, Bool.and_eq_true, Nat.beq_eq, h.1, false_or, List.all_eq_true, List.mem_range,
    Nat.ble_eq, Nat.blt_eq] at this
  obtain ⟨h1, h2⟩ := this
  refine ⟨fun X hX e1 e2 e3 t ht hl => ?_, fun e1 e2 t ht n pid ha => ?_⟩
  · obtain ⟨h3, h4⟩ := ((((h1.resolve_left e1) X hX).resolve_left e2).resolve_left e3 t ht).resolve_left hl
    refine ⟨fun n pid ha => ?_, h4.resolve_left⟩
    rw [ha] at h3
    exact h3.resolve_left (by simp [isReduceOf])
  · have := ((h2.resolve_left e1).resolve_left e2) t ht
    rw [ha] at this
    exact this.resolve_left (by simp [isReduceOf])

/-- Operators and their tokens. -/
theorem chk_ops : (grammar.all fun r => Nat.beq (symLevel r.lhs) 0 || match r.rhs with
    | [c] => c.all fun x => Nat.blt x 60 && Nat.beq (tokLevel x) (symLevel r.lhs)
    | _ => false) = true := by decide +kernel

theorem chk_optoks : ((List.range 60).all fun s => Nat.beq (symLevel s) 0 || Nat.beq (tokLevel s) (symLevel s)) = true := by decide +kernel

theorem Chain.solid : ∀ {q t f q' : Nat} {cs : List Tree}, Chain q cs t f q' → Chain q (cs.filter (!·.extra)) t f q'
  | _, _, _, _, _, .nil => .nil
  | _, _, _, _, _, .extra he h => by
    rw [List.filter_cons_of_neg (by simp [he.extra])]
    exact h.solid
  | _, _, _, _, _, .cons he hne hf h => by
    rw [List.filter_cons_of_pos (by simp [he])]
    exact .cons he hne hf h.solid

theorem parts_one {cs : List Tree} {x : Nat} (h : Bob.Parse.solid cs = [x]) : ∃ d, cs.filter (!·.extra) = [d] ∧ d.sym = x ∧ d.extra = false := by
  unfold Bob.Parse.solid at h
  generalize hf : cs.filter (!·.extra) = ds at h
  match ds, h with
  | [d], h =>
    refine ⟨d, rfl, by simpa using h, ?_⟩
    have : d ∈ cs.filter (!·.extra) := hf ▸ List.mem_cons_self ..
    simpa using (List.mem_filter.1 this).2

theorem Chain.head {q t f q' : Nat} {c : Tree} {cs : List Tree} (h : Chain q (c :: cs) t f q') (hc : c.extra = false) :
    ∃ f1, edge q c.sym ≠ 0 ∧ Fits q f1 c f ∧ Chain (edge q c.sym) cs t f1 q' := by
  cases h with
  | extra he => rw [he.extra] at hc; cases hc
  | cons _ hne hf h => exact ⟨_, hne, hf, h⟩

theorem op_first {q t f : Nat} {o : Tree} (hq : Live q) (hf : Fits q t o f) (he : edge q o.sym ≠ 0) (hl : symLevel o.sym ≠ 0) :
    f < 60 ∧ tokLevel f = symLevel o.sym ∧ edge q f ≠ 0 := by
  cases hf with
  | leaf h =>
    have := List.all_eq_true.1 chk_optoks _ (List.mem_range.2 h)
    simp only [Bool.or_eq_true, Nat.beq_eq] at this
    exact ⟨h, this.resolve_left hl, he⟩
  | @node _ _ _ _ _ _ _ cs hc ha hn _ _ _ _ =>
    obtain ⟨r, hr, rfl, _, hfi, _⟩ := reduce_rule hc hq ha hn
    have := List.all_eq_true.1 chk_ops r hr
    simp only [Bool.or_eq_true, Nat.beq_eq] at this
    have := this.resolve_left hl
    match hrhs : r.rhs, this with
    | [c], this =>
      rw [hrhs] at hfi
      cases hs : Bob.Parse.solid cs with
      | nil => rw [hs] at hfi; exact hfi.elim
      | cons x xs =>
        rw [hs] at hfi
        obtain ⟨hx, hxs⟩ := hfi
        cases xs with
        | cons => exact hxs.elim
        | nil =>
          have := List.all_eq_true.1 this x hx
          simp only [Bool.and_eq_true, Nat.blt_eq, Nat.beq_eq] at this
          obtain ⟨d, hd, rfl, hxd⟩ := parts_one hs
          have hc' := hc.solid
          rw [hd] at hc'
          obtain ⟨f1, hne, hfd, -⟩ := hc'.head hxd
          cases hfd with
          | leaf => exact ⟨this.1, this.2, hne⟩
          | node _ _ _ _ h60 => exact absurd this.1 (Nat.not_lt.2 h60)

/-- What holds of all parts of an accepted tree. -/
def Part (s : Tree) : Prop := (∃ q t f, Live q ∧ Fits q t s f) ∨ ExtraOK s

theorem Chain.part : ∀ {q t f q' : Nat} {cs : List Tree}, Chain q cs t f q' → Live q → ∀ c ∈ cs, Part c
  | _, _, _, _, _, .nil, _, _, h => by simp at h
  | _, _, _, _, _, .extra he h, hq, c, hc => by
    rcases List.mem_cons.1 hc with rfl | hc
    · exact .inr he
    · exact h.part hq c hc
  | _, _, _, _, _, .cons he hne hf h, hq, c, hc => by
    rcases List.mem_cons.1 hc with rfl | hc
    · exact .inl ⟨_, _, _, hq, hf⟩
    · exact h.part (edge_ok hq hf.sym.1 hf.sym.2 hne).live c hc

theorem Part.within {s t : Tree} (h : Within s t) (ht : Part t) : Part s := by
  induction h with
  | refl => exact ht
  | child hm _ ih =>
    refine ih ?_
    rcases ht with ⟨q, t, f, hq, hf⟩ | he
    · cases hf with
      | node hc => exact hc.part hq _ hm
    · cases he with
      | doc hq hc => exact hc.part hq _ hm

theorem WholeFits.within {s t : Tree} (h : WholeFits t) (hw : Within s t) : s.sym = 60 ∨ s.sym = 0 ∨ Part s := by
  cases h with
  | @mk pid f pre cs post pad text hf h1 h2 =>
    cases hw with
    | refl => exact .inl rfl
    | child hm hw =>
      have hp : Part (.node 60 pid cs false) := .inl ⟨_, _, _, live_one, hf⟩
      simp only [List.mem_append, List.mem_singleton] at hm
      rcases hm with (hm | hm) | hm | rfl
      · exact .inr (.inr (Part.within hw (.inr (h1 _ hm))))
      · exact .inr (.inr (Part.within (.child hm hw) hp))
      · exact .inr (.inr (Part.within hw (.inr (h2 _ hm))))
      · cases hw; exact .inr (.inl rfl)

end Bob.Parse
