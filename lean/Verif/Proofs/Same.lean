import Verif.Spec.Same
import Verif.Proofs.HistoryInst
import Verif.Proofs.BuildsHolds

/-!
# The same program on different vectors: proofs
-/

namespace Verif
section
variable {V W : Type} {T : UTy} {β : Type}

theorem listRun_same : ∀ {p q : List (Env (Val T β) × Op T β)} (s : Ideal T β), SameCalls p q → listRun p s = listRun q s
  | [], [], _, _ => rfl
  | [], _ :: _, _, h => nomatch h
  | _ :: _, [], _, h => nomatch h
  | (e, op) :: p, (e', op') :: q, s, h => by
    obtain ⟨h1, h2⟩ := List.cons.inj h
    obtain ⟨h3, h4⟩ := Prod.mk.inj h1
    dsimp only at h3 h4
    subst h4
    unfold listRun
    rw [h3, listRun_same _ h2]

variable {c d : Cfg} {M : Machine V T β} {N : Machine W T β}

theorem Client.returns (K : Client c M) {p : List (Env (Val T β) × Op T β)} {v : V} {s : Ideal T β} (hr : K.Rel v s) (hs : K.Safe p v s)
    (hq : K.Quiet p v s) : ∃ v', runOps c M p v = .ok (listRun p s).1 v' ∧ K.Rel v' (listRun p s).2 := by
  have h := K.history p v s hr hs
  cases h1 : runOps c M p v with
  | ok os v' =>
    rw [h1] at h
    obtain ⟨s', h2, _, h3⟩ := h
    have h4 := h3 (Along.imp (fun _ _ _ _ h => h.1) hq)
    rw [← h4]
    exact ⟨v', rfl, h2⟩
  | panic _ => rw [h1] at h; exact h.elim
  | abort => rw [h1] at h; exact absurd hq h
  | ub => rw [h1] at h; exact h.elim

theorem Client.agree (K : Client c M) (L : Client d N) {p q : List (Env (Val T β) × Op T β)} (hc : SameCalls p q) {v : V} {w : W} {s : Ideal T β}
    (hv : K.Rel v s) (hw : L.Rel w s) (hs : K.Safe p v s) (hs' : L.Safe q w s) 
    (hq : K.Quiet p v s) (hq' : L.Quiet q w s) : Indistinguishable M N K.H L.H (runOps c M p v) (runOps d N q w) := by
  obtain ⟨v', h1, h2⟩ := K.returns hv hs hq
  obtain ⟨w', h3, h4⟩ := L.returns hw hs' hq'
  rw [← listRun_same s hc] at h3 h4
  exact ⟨_, v', w', _, h1, h3, h2, h4⟩

end

theorem ATy.sized_lawful {c : Cfg} {sz al : Nat} (h : IsAlign c al) : (ATy.sized sz al).Lawful c :=
  ATy.Exact.lawful (fun _ => rfl) h (fun _ => rfl)

end Verif
