import Verif.Spec.Interact
import Verif.Spec.Same
import Verif.Proofs.HistoryInst

/-!
# Programs that decide what to do next: proofs
-/

namespace Verif
section
variable {V W : Type} {T : UTy} {β : Type} {c d : Cfg} {M : Machine V T β} {N : Machine W T β} {σ τ : Strategy T β}

theorem Throughout.imp {H : V → List (Val T β) → Prop} {Q Q' : Env (Val T β) → Op T β → V → List (Val T β) → Prop}
    (hq : ∀ env op v xs, Q env op v xs → Q' env op v xs) :
    ∀ {n h v s}, Throughout c M H Q σ n h v s → Throughout c M H Q' σ n h v s
  | 0, _, _, _, _ => trivial
  | _ + 1, _, _, _, ht => fun env op ho =>
    ⟨hq _ _ _ _ (ht env op ho).1, fun o v' s' h1 h2 h3 => Throughout.imp hq ((ht env op ho).2 o v' s' h1 h2 h3)⟩

theorem ThroughoutList.throughout {H : V → List (Val T β) → Prop} {Q : Env (Val T β) → Op T β → List (Val T β) → Prop}
    {Q' : Env (Val T β) → Op T β → V → List (Val T β) → Prop} (hq : ∀ env op v xs, Q env op xs → Q' env op v xs) :
    ∀ {n h v s}, ThroughoutList Q σ n h s → Throughout c M H Q' σ n h v s
  | 0, _, _, _, _ => trivial
  | _ + 1, _, _, _, ht => fun env op ho =>
    ⟨hq _ _ _ _ (ht env op ho).1, fun o _ s' _ _ h3 => ThroughoutList.throughout hq ((ht env op ho).2 o s' h3)⟩

theorem listInteract_same (hσ : SameStrategy σ τ) : ∀ n h s, listInteract σ n h s = listInteract τ n h s
  | 0, _, _ => rfl
  | n + 1, h, s => by
    have h1 := hσ h
    unfold listInteract
    cases h2 : σ h with
    | none =>
      cases h3 : τ h with
      | none => rfl
      | some y => rw [h2, h3] at h1; nomatch h1
    | some x =>
      cases h3 : τ h with
      | none => rw [h2, h3] at h1; nomatch h1
      | some y =>
        rw [h2, h3] at h1
        obtain ⟨e, op⟩ := x
        obtain ⟨e', op'⟩ := y
        obtain ⟨h4, h5⟩ := Prod.mk.inj (Option.some.inj h1)
        dsimp only at h4 h5 ⊢
        subst h5
        rw [h4]
        exact listInteract_same hσ n _ _

/-- The calls that are made. -/
def script (c : Cfg) (M : Machine V T β) (σ : Strategy T β) : Nat → List (Out T β) → V → List (Env (Val T β) × Op T β)
  | 0, _, _ => []
  | n + 1, h, v =>
    match σ h with
    | none => []
    | some (env, op) => (env, op) :: 
      match caught (op.exec c M env) v with
      | .ok o v' => script c M σ n (h ++ [o]) v'
      | _ => []

theorem interact_script : ∀ n h v,
    interact c M σ n h v = (runOps c M (script c M σ n h v) >>= fun os => pure (h ++ os)) v ∧
    ∀ os v', runOps c M (script c M σ n h v) v = .ok os v' → ∀ i, i < (script c M σ n h v).length →
      σ (h ++ os.take i) = (script c M σ n h v)[i]?
  | 0, h, v => ⟨by rw [show script c M σ 0 h v = [] from rfl]; show Res.ok h v = Res.ok (h ++ []) v; rw [List.append_nil],
      fun _ _ _ _ hi => nomatch hi⟩
  | n + 1, h, v => by
    cases h1 : σ h with
    | none =>
      have h2 : script c M σ (n + 1) h v = [] := by unfold script; rw [h1]
      have h3 : interact c M σ (n + 1) h v = .ok h v := by unfold interact; rw [h1]; rfl
      rw [h2, h3]
      exact ⟨by show _ = Res.ok (h ++ []) v; rw [List.append_nil], fun _ _ _ _ hi => nomatch hi⟩
    | some x =>
      obtain ⟨env, op⟩ := x
      have h3 : interact c M σ (n + 1) h v = (caught (op.exec c M env) >>= fun o => interact c M σ n (h ++ [o])) v := by
        rw [interact, h1]
      have h4 : ∀ rest, runOps c M ((env, op) :: rest) = 
        (caught (op.exec c M env) >>= fun o => runOps c M rest >>= fun os => pure (o :: os)) := fun _ => rfl
      cases h5 : caught (op.exec c M env) v with
      | ok o v1 =>
        have h2 : script c M σ (n + 1) h v = (env, op) :: script c M σ n (h ++ [o]) v1 := by rw [script, h1]; dsimp only; rw [h5]
        obtain ⟨ih1, ih2⟩ := interact_script n (h ++ [o]) v1
        rw [h2, h3, Exec.bind_ok h5, ih1, h4]
        constructor
        · rw [Exec.bind_assoc_apply, Exec.bind_ok h5, Exec.bind_assoc_apply]
          have h6 : (fun os => (pure (h ++ [o] ++ os) : Exec V _)) = fun os => pure (o :: os) >>= fun os => pure (h ++ os) := by
            funext os v2
            show Res.ok _ _ = Res.ok _ _
            rw [List.append_assoc]
            rfl
          rw [h6]
        · intro os v' hr i hi
          rw [Exec.bind_ok h5] at hr
          cases h6 : runOps c M (script c M σ n (h ++ [o]) v1) v1 with
          | ok os1 v2 =>
            rw [Exec.bind_ok h6] at hr
            obtain ⟨rfl, rfl⟩ : o :: os1 = os ∧ v2 = v' := by
              injection hr with e1 e2
              exact ⟨e1, e2⟩
            cases i with
            | zero => rw [List.take_zero, List.append_nil, h1]; rfl
            | succ i =>
              have h7 := ih2 os1 v2 h6 i (Nat.lt_of_succ_lt_succ hi)
              rw [List.take_succ_cons, List.getElem?_cons_succ, ← h7, List.append_assoc]
              rfl
          | panic v2 => rw [Exec.bind_panic h6] at hr; nomatch hr
          | abort => rw [Exec.bind_abort h6] at hr; nomatch hr
          | ub => rw [Exec.bind_ub h6] at hr; nomatch hr
      | panic v1 =>
        rw [h3, Exec.bind_panic h5, script, h1]
        dsimp only
        rw [h5, h4]
        refine ⟨by rw [Exec.bind_assoc_apply, Exec.bind_panic h5], fun os v' hr => ?_⟩
        rw [Exec.bind_panic h5] at hr
        nomatch hr
      | abort =>
        rw [h3, Exec.bind_abort h5, script, h1]
        dsimp only
        rw [h5, h4]
        refine ⟨by rw [Exec.bind_assoc_apply, Exec.bind_abort h5], fun os v' hr => ?_⟩
        rw [Exec.bind_abort h5] at hr
        nomatch hr
      | ub =>
        rw [h3, Exec.bind_ub h5, script, h1]
        dsimp only
        rw [h5, h4]
        refine ⟨by rw [Exec.bind_assoc_apply, Exec.bind_ub h5], fun os v' hr => ?_⟩
        rw [Exec.bind_ub h5] at hr
        nomatch hr

/-- Running for `n` calls and then for `m` calls. -/
theorem interact_add : ∀ n m h v, interact c M σ (n + m) h v = (interact c M σ n h >>= interact c M σ m) v
  | 0, m, h, v => by rw [Nat.zero_add]; rfl
  | n + 1, m, h, v => by
    rw [Nat.add_right_comm]
    unfold interact
    cases h1 : σ h with
    | none =>
      cases m with
      | zero => rfl
      | succ m =>
        show _ = interact c M σ (m + 1) h v
        unfold interact
        rw [h1]
    | some x =>
      dsimp only
      rw [Exec.bind_assoc_apply]
      have h2 : (fun o => interact c M σ (n + m) (h ++ [o])) = fun o => interact c M σ n (h ++ [o]) >>= interact c M σ m := by
        funext o v1
        exact interact_add n m _ _
      rw [h2]

theorem Client.interacts (K : Client c M) : ∀ (n : Nat) (h : List (Out T β)) (v : V) (s : Ideal T β), K.Rel v s →
    Throughout c M K.H (fun env op v xs => K.EnvOk env ∧ op.WF c xs ∧ K.Covered env op v xs) σ n h v s →
    (interact c M σ n h v).Meets
      (fun os v' => ∃ s', K.Rel v' s' ∧ ExplainsFor σ n h s os s' ∧
        (Throughout c M K.H (fun env op v xs => ¬ K.Short env op v xs) σ n h v s → (os, s') = listInteract σ n h s))
      (fun _ => False) (¬ Throughout c M K.H (fun env op v xs => ¬ K.Short env op v xs ∧ ¬ op.Dies env.dropPanics xs) σ n h v s)
  | 0, h, v, s, hr, _ => ⟨s, hr, ⟨rfl, rfl⟩, fun _ => rfl⟩
  | n + 1, h, v, s, hr, hs => by
    cases hσ : σ h with
    | none =>
      have h1 : interact c M σ (n + 1) h v = .ok h v := by unfold interact; rw [hσ]; rfl
      rw [h1]
      exact ⟨s, hr, .inl ⟨hσ, rfl, rfl⟩, fun _ => by unfold listInteract; rw [hσ]⟩
    | some x =>
      obtain ⟨env, op⟩ := x
      obtain ⟨⟨he, hw, hc⟩, hrest⟩ := hs env op hσ
      have h0 : interact c M σ (n + 1) h v = (caught (op.exec c M env) >>= fun o => interact c M σ n (h ++ [o])) v := by
        rw [interact, hσ]
      rw [h0]
      rcases Client.Good.caught_ok K (K.step he hr op hw hc) with ⟨o, v1, s1, h1, h2, h3⟩ | ⟨h1, h2⟩
      · rw [Exec.bind_ok h1]
        have ih := Client.interacts K n (h ++ [o]) v1 s1 h2 (hrest o v1 s1 h1 h2 (h3.weaken fun _ => trivial))
        refine ih.mono ?_ (fun _ h => h) ?_
        · rintro os v' ⟨s', h5, h6, h7⟩
          refine ⟨s', h5, .inr ⟨env, op, o, s1, hσ, h3.weaken fun _ => trivial, h6⟩, fun hp => ?_⟩
          obtain ⟨hp1, hp2⟩ := hp env op hσ
          rcases h3 with h3 | ⟨h3, _⟩
          · have h8 := h7 (hp2 o v1 s1 h1 h2 (.inl h3))
            unfold listInteract
            rw [hσ]
            dsimp only
            rw [← h3, ← h8]
          · exact absurd h3 hp1
        · exact fun h4 hp => h4 ((hp env op hσ).2 o v1 s1 h1 h2 (h3.weaken fun _ => trivial))
      · rw [Exec.bind_abort h1]
        exact fun hp => h2.elim (hp env op hσ).1.1 (hp env op hσ).1.2

theorem Client.interacts_agree (K : Client c M) (L : Client d N) (hσ : SameStrategy σ τ) {n : Nat} {h : List (Out T β)} {v : V} {w : W}
    {s : Ideal T β} (hv : K.Rel v s) (hw : L.Rel w s)
    (hs : Throughout c M K.H (fun env op v xs => K.EnvOk env ∧ op.WF c xs ∧ K.Covered env op v xs) σ n h v s)
    (hs' : Throughout d N L.H (fun env op v xs => L.EnvOk env ∧ op.WF d xs ∧ L.Covered env op v xs) τ n h w s)
    (hq : Throughout c M K.H (fun env op v xs => ¬ K.Short env op v xs ∧ ¬ op.Dies env.dropPanics xs) σ n h v s)
    (hq' : Throughout d N L.H (fun env op v xs => ¬ L.Short env op v xs ∧ ¬ op.Dies env.dropPanics xs) τ n h w s) :
    Indistinguishable M N K.H L.H (interact c M σ n h v) (interact d N τ n h w) := by
  have h1 := K.interacts n h v s hv hs
  have h2 := L.interacts n h w s hw hs'
  cases h3 : interact c M σ n h v with
  | ok os v' =>
    rw [h3] at h1
    obtain ⟨s1, h4, _, h5⟩ := h1
    cases h6 : interact d N τ n h w with
    | ok os' w' =>
      rw [h6] at h2
      obtain ⟨s2, h7, _, h8⟩ := h2
      have h9 := h5 (hq.imp fun _ _ _ _ h => h.1)
      have h10 := h8 (hq'.imp fun _ _ _ _ h => h.1)
      rw [← listInteract_same hσ, ← h9] at h10
      obtain ⟨rfl, rfl⟩ := Prod.mk.inj h10
      exact ⟨_, v', w', _, rfl, rfl, h4, h7⟩
    | panic _ => rw [h6] at h2; exact h2.elim
    | abort => rw [h6] at h2; exact absurd hq' h2
    | ub => rw [h6] at h2; exact h2.elim
  | panic _ => rw [h3] at h1; exact h1.elim
  | abort => rw [h3] at h1; exact absurd hq h1
  | ub => rw [h3] at h1; exact h1.elim

theorem script_length : ∀ n h v, (script c M σ n h v).length ≤ n
  | 0, _, _ => Nat.le_refl _
  | n + 1, h, v => by
    unfold script
    split
    · exact Nat.zero_le _
    · refine Nat.succ_le_succ ?_
      split
      · exact script_length n _ _
      · exact Nat.zero_le _

theorem ExplainsFor.explains : ∀ {n h s os s'}, ExplainsFor σ n h s os s' →
    ∃ p os', os = h ++ os' ∧ Explains p s os' s' ∧ ∀ i, i < p.length → σ (h ++ os'.take i) = p[i]?
  | 0, h, _, _, _, ⟨h1, h2⟩ => ⟨[], [], by rw [h1, List.append_nil], ⟨rfl, h2⟩, fun _ hi => nomatch hi⟩
  | _ + 1, h, _, _, _, .inl ⟨_, h1, h2⟩ => ⟨[], [], by rw [h1, List.append_nil], ⟨rfl, h2⟩, fun _ hi => nomatch hi⟩
  | n + 1, h, s, os, s', .inr ⟨env, op, o, s1, h1, h2, h3⟩ => by
    obtain ⟨p, os', h4, h5, h6⟩ := ExplainsFor.explains h3
    refine ⟨(env, op) :: p, o :: os', by rw [h4, List.append_assoc]; rfl, ⟨o, os', s1, rfl, h2, h5⟩, fun i hi => ?_⟩
    cases i with
    | zero => rw [List.take_zero, List.append_nil, h1]; rfl
    | succ i =>
      have h7 := h6 i (Nat.lt_of_succ_lt_succ hi)
      rw [List.take_succ_cons, List.getElem?_cons_succ, ← h7, List.append_assoc]
      rfl

theorem Exec.bind_pure_apply {S α : Type} (m : Exec S α) (s : S) : (m >>= fun a => (pure a : Exec S α)) s = m s := by
  rw [Exec.bind_apply]
  cases m s <;> rfl

end
end Verif
