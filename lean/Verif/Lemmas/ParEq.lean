import Verif.Model.Parser.Driver
/-!
# Comparing trees
-/

namespace Bob.Parse

mutual
def Tree.same : Tree → Tree → Bool
  | .leaf s p t e, .leaf s' p' t' e' => s == s' && p == p' && t == t' && e == e'
  | .node s p cs e, .node s' p' cs' e' => s == s' && p == p' && sames cs cs' && e == e'
  | _, _ => false
def sames : List Tree → List Tree → Bool
  | [], [] => true
  | a :: as, b :: bs => a.same b && sames as bs
  | _, _ => false
end

mutual
theorem Tree.same_eq : ∀ {a b : Tree}, a.same b = true → a = b
  | .leaf .., .leaf .., h => by
    simp only [Tree.same, Bool.and_eq_true, beq_iff_eq] at h
    obtain ⟨⟨⟨rfl, rfl⟩, rfl⟩, rfl⟩ := h
    rfl
  | .node .., .node .., h => by
    simp only [Tree.same, Bool.and_eq_true, beq_iff_eq] at h
    obtain ⟨⟨⟨rfl, rfl⟩, h⟩, rfl⟩ := h
    rw [sames_eq h]
  | .leaf .., .node .., h => by simp [Tree.same] at h
  | .node .., .leaf .., h => by simp [Tree.same] at h
theorem sames_eq : ∀ {as bs : List Tree}, sames as bs = true → as = bs
  | [], [], _ => rfl
  | _ :: _, _ :: _, h => by
    simp only [sames, Bool.and_eq_true] at h
    rw [Tree.same_eq h.1, sames_eq h.2]
  | [], _ :: _, h => by simp [sames] at h
  | _ :: _, [], h => by simp [sames] at h
end

/-! For samples. -/

def tk (s : Nat) (pad text : Bytes) : Tree := .leaf s pad text false

def nd (A pid : Nat) (cs : List Tree) : Tree := .node A pid cs false

/-- The tree of a script of one line. -/
def oneLine (line : Tree) : Tree := nd 60 0 [nd 61 0 [nd 64 0 [line], tk 2 [] b!"\n"], .leaf 0 [] [] true]

def exprOf (t : Tree) : Tree := nd 78 0 [t]

def identOf (pad name : Bytes) : Tree := exprOf (nd 104 0 [tk 53 pad name])

def numOf (pad digits : Bytes) : Tree := exprOf (nd 87 0 [tk 54 pad digits])

/-- Whether parsing yields a tree. -/
def yieldsTree (text : Bytes) (t : Tree) : Bool :=
  match parse text with
  | some (.tree t') => t'.same t
  | _ => false

theorem yieldsTree_parses {text : Bytes} {t : Tree} (h : yieldsTree text t = true) : Parses text (.tree t) := by
  unfold yieldsTree at h
  split at h
  · rename_i t' hp
    rw [← Tree.same_eq h]
    exact ⟨_, hp⟩
  · cases h

end Bob.Parse
