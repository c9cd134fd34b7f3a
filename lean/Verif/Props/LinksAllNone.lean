import Verif.Model.LinksAll
import Verif.Props.LinksNone
/-!
# C128: every entry has its turn, and trees without links
-/

namespace Bob

def AllRes.toL : AllRes → LAllRes
  | .failed t => .failed t.toL
  | .abort => .abort
  | .ok t _ => .ok t.toL

/-- Without links, nothing is different. -/
theorem C128_no_links (e : InstEnv) : ∀ (l : List ((Bytes × Bytes) × Nat)) (t : Tree) (copied : List (Bytes × Bytes)), linstallAll e.toL l t.toL = (installAll e l t copied).toL
  | [], t, copied => rfl
  | ((key, val), now) :: rest, t, copied => by
    rw [linstallAll, installAll, C125_no_links]
    cases installSingle e key val false now t with
    | failed t => rfl
    | abort => rfl
    | product => exact C128_no_links e rest t copied
    | already t => exact C128_no_links e rest t copied
    | copied t => exact C128_no_links e rest t _

/-- If installing succeeds, then every entry has had its turn, after those before it, and was a product, already installed, or copied. -/
theorem C128_every {e : LInstEnv} : ∀ {before : List ((Bytes × Bytes) × Nat)} {key val : Bytes} {now : Nat} {after : List ((Bytes × Bytes) × Nat)} {t t' : LTree},
    linstallAll e (before ++ ((key, val), now) :: after) t = .ok t' → ∃ t0 t1, linstallAll e before t = .ok t0 ∧ linstallAll e after t1 = .ok t' ∧
      (linstallSingle e key val false now t0 = .product ∧ t1 = t0 ∨ linstallSingle e key val false now t0 = .already t1 ∨ linstallSingle e key val false now t0 = .copied t1)
  | [], key, val, now, after, t, t', h => by
    rw [List.nil_append, linstallAll] at h
    cases hs : linstallSingle e key val false now t with
    | failed t2 => rw [hs] at h; cases h
    | abort => rw [hs] at h; cases h
    | product => rw [hs] at h; exact ⟨t, t, rfl, h, .inl ⟨hs, rfl⟩⟩
    | already t2 => rw [hs] at h; exact ⟨t, t2, rfl, h, .inr (.inl hs)⟩
    | copied t2 => rw [hs] at h; exact ⟨t, t2, rfl, h, .inr (.inr hs)⟩
  | ((k, v), n) :: before, key, val, now, after, t, t', h => by
    rw [List.cons_append, linstallAll] at h
    cases hs : linstallSingle e k v false n t with
    | failed t2 => rw [hs] at h; cases h
    | abort => rw [hs] at h; cases h
    | product => rw [hs] at h; obtain ⟨t0, t1, h1, h2⟩ := C128_every h; exact ⟨t0, t1, by rw [linstallAll, hs]; exact h1, h2⟩
    | already t2 => rw [hs] at h; obtain ⟨t0, t1, h1, h2⟩ := C128_every h; exact ⟨t0, t1, by rw [linstallAll, hs]; exact h1, h2⟩
    | copied t2 => rw [hs] at h; obtain ⟨t0, t1, h1, h2⟩ := C128_every h; exact ⟨t0, t1, by rw [linstallAll, hs]; exact h1, h2⟩

end Bob
