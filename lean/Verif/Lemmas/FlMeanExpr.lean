import Verif.Lemmas.FlMeanReq
/-!
# Expressions have the values and ask for the things the description says
-/

namespace Bob.Fl

section
variable {L : Discipline} {w : World}

/-- What has a meaning is no new instance. -/
theorem Means.notNew (hL : L.classes = bobClasses) {ρ : Names} {e : Expr} {v : Val} {r : List Ask} (h : Means w ρ e v r) : e.isNew L = false := by
  cases h <;> first | rfl | (simp only [Expr.isNew, Expr.isClass, hL]; decide)

theorem Held.notNew (hL : L.classes = bobClasses) {ρ : Names} {e : Expr} {v : Val} {r : List Ask} (h : Held w ρ e v r) : e.isNew L = false := by
  cases h with
  | value h => exact h.notNew hL
  | link => simp only [Expr.isNew, Expr.isClass, hL]; decide
  | archive => simp only [Expr.isNew, Expr.isClass, hL]; decide

theorem ok_call1 {f a : Expr} (h : (Expr.call f [a]).ok L false = true) : f.ok L false = true ∧ a.ok L false = true := by
  unfold Expr.ok okVals at h
  simp only [ok_and] at h
  exact ⟨h.1.1, h.2.1.1⟩

theorem ok_member {e : Expr} {x : Bytes} {args : List Expr} (h : (Expr.call (.access e x) args).ok L false = true) : e.ok L false = true := by
  unfold Expr.ok at h
  simp only [ok_and] at h
  have h1 := h.1.1
  unfold Expr.ok at h1
  simp only [ok_and] at h1
  exact h1.1

theorem ok_ask {c x : Bytes} {fl e : Expr} (h : (Expr.call (.access (.call (.ident c) [fl]) x) [e]).ok L false = true) : fl.ok L false = true ∧ e.ok L false = true :=
  ⟨(ok_call1 (ok_member h)).2, (ok_call1 h).2⟩

theorem ok_lambda {e b : Expr} {x y : Bytes} (h : (Expr.call (.access e y) [.lambda [x] (.expr b)]).ok L false = true) : b.ok L false = true := by
  have h1 := (ok_call1 h).2
  unfold Expr.ok Body.ok at h1
  simp only [ok_and] at h1
  exact h1.2.1

mutual

theorem means_ev (hW : w.Ok L) {ρ : Names} {e : Expr} {v : Val} {r : List Ask} : Means w ρ e v r → e.ok L false = true → Ev w L ρ e v r
  | .none, _ => ev_none
  | .bool b, _ => ev_bool b
  | .num h1 h2, _ => ev_num h1 h2
  | .str b, _ => ev_str b
  | .ident h, _ => ev_ident h
  | .paren h, hok => ev_paren (means_ev hW h (by
      unfold Expr.ok at hok
      simp only [ok_and] at hok
      exact hok.1))
  | .un h hv, hok => ev_un hW hok (means_ev hW h (by
      unfold Expr.ok at hok
      simp only [ok_and] at hok
      exact hok.1)) hv
  | .bin h1 h2 hv, hok => ev_bin hW hok (means_ev hW h1 (by
      unfold Expr.ok at hok
      simp only [ok_and] at hok
      exact hok.1.1.1)) (means_ev hW h2 (by
      unfold Expr.ok at hok
      simp only [ok_and] at hok
      exact hok.1.2)) hv
  | .vec h, hok => ev_vec (helds_ev hW h (by
      unfold Expr.ok at hok
      exact hok))
  | .map h hp hpw, hok => ev_map (items_ev hW h (by
      unfold Expr.ok at hok
      exact hok)) hp hpw
  | .index h1 h2 hk hv, hok => ev_index hW hok (means_ev hW h1 (by
      unfold Expr.ok at hok
      simp only [ok_and] at hok
      exact hok.1.1.1)) (means_ev hW h2 (by
      unfold Expr.ok at hok
      simp only [ok_and] at hok
      exact hok.1.2)) hk hv
  | .entry h1 h2 hp pk hv, hok => ev_entry hW hok (means_ev hW h1 (by
      unfold Expr.ok at hok
      simp only [ok_and] at hok
      exact hok.1.1.1)) (means_ev hW h2 (by
      unfold Expr.ok at hok
      simp only [ok_and] at hok
      exact hok.1.2)) hp pk hv
  | .len h, hok => ev_len hW hok (means_ev hW h (ok_member hok))
  | .lenVec h, hok => ev_lenVec hW hok (means_ev hW h (ok_member hok))
  | .startswith h1 h2, hok => ev_startswith hW hok (means_ev hW h1 (ok_member hok)) (means_ev hW h2 (ok_call1 hok).2)
  | .endswith h1 h2, hok => ev_endswith hW hok (means_ev hW h1 (ok_member hok)) (means_ev hW h2 (ok_call1 hok).2)
  | .each h1 hx h2, hok => ev_each hW hok (means_ev hW h1 (ok_member hok)) hx (maps_ev hW h2 (ok_lambda hok))
  | .where h1 hx h2, hok => ev_where hW hok (means_ev hW h1 (ok_member hok)) hx (wheres_ev hW h2 (ok_lambda hok))
  | .list h hl, hok => ev_list hW hok (means_ev hW h (ok_call1 hok).2) hl
  | .compile h1 h2, hok => ev_compile hW hok (means_ev hW h1 (ok_ask hok).1) (means_ev hW h2 (ok_ask hok).2)

theorem held_ev (hW : w.Ok L) {ρ : Names} {e : Expr} {v : Val} {r : List Ask} : Held w ρ e v r → e.ok L false = true → EvHeld w L ρ e v r
  | .value h, hok => (means_ev hW h hok).held
  | .link h1 h2, hok => evHeld_link hW false hok (means_ev hW h1 (ok_ask hok).1) (means_ev hW h2 (ok_ask hok).2)
  | .archive h1 h2, hok => evHeld_link hW true hok (means_ev hW h1 (ok_ask hok).1) (means_ev hW h2 (ok_ask hok).2)

theorem helds_ev (hW : w.Ok L) {ρ : Names} {es : List Expr} {vs : List Val} {r : List Ask} : Helds w ρ es vs r → okVals L false es = true → EvHelds w L ρ es vs r
  | .nil, _ => evHelds_nil
  | .cons h1 h2, hok => by
    unfold okVals at hok
    simp only [ok_and] at hok
    exact evHelds_cons hW hok.1.1 (held_ev hW h1 hok.1.1) (helds_ev hW h2 hok.2)

theorem items_ev (hW : w.Ok L) {ρ : Names} {es : List (Expr × Expr)} {items : List (Val × Val)} {r : List Ask} : HeldItems w ρ es items r → okItems L false es = true → EvItems w L ρ es items r
  | .nil, _ => evItems_nil
  | .cons h1 h2 h3, hok => by
    unfold okItems at hok
    simp only [ok_and] at hok
    exact evItems_cons hW hok.1.1.1.1 hok.1.1.2 (held_ev hW h1 hok.1.1.1.1) (held_ev hW h2 hok.1.1.2) (items_ev hW h3 hok.2)

theorem maps_ev (hW : w.Ok L) {ρ : Names} {x : Bytes} {b : Expr} {vs us : List Val} {r : List Ask} : Maps w ρ x b vs us r → b.ok L false = true → EvMaps w L ρ x b vs us r
  | .nil, _ => .nil
  | .cons h1 h2, hok => .cons (means_ev hW h1 hok) (maps_ev hW h2 hok)

theorem wheres_ev (hW : w.Ok L) {ρ : Names} {x : Bytes} {b : Expr} {vs us : List Val} {r : List Ask} : Wheres w ρ x b vs us r → b.ok L false = true → EvWheres w L ρ x b vs us r
  | .nil, _ => .nil
  | .yes h1 h2, hok => .yes (means_ev hW h1 hok) (wheres_ev hW h2 hok)
  | .no h1 h2, hok => .no (means_ev hW h1 hok) (wheres_ev hW h2 hok)

end

end

end Bob.Fl
