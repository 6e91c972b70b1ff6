import Verif.Spec.Protocol
import Verif.Proofs.Run

/-!
# The exchange between an emplacable and any emplacer that keeps its contract
-/

namespace Verif
variable {σ τ : Type} {T : UTy} {β : Type}

theorem Emplacer.keeps_of_meets {m : Emplacer τ T β} {md : T.Meta} {t : τ} {B : τ → Prop} {A : List β → τ → Prop} {Q : τ → Prop} {R : Prop}
    (h : (m ⟨T.sizeOf md, T.alignOf md⟩ md t).Meets (fun p t1 => p.Places t1 (T.sizeOf md) B A) Q R) : m.Keeps md t where
  noUb := fun h' => by rw [h'] at h; exact h
  place := by
    intro store commit rollback t1 h' bs hbs
    rw [h'] at h
    obtain ⟨_, _, _, he, hr, hc⟩ := h
    cases he
    obtain ⟨t2, t3, h1, h2, _⟩ := hr bs hbs
    refine ⟨t2, h1, ⟨t3, h2⟩, fun hl => ?_⟩
    obtain ⟨t2', t3', h1', h2', _⟩ := hc bs hl
    rw [h1] at h1'; cases h1'
    exact ⟨t3', h2'⟩
  dropIt := by
    intro commit t1 h'
    rw [h'] at h
    obtain ⟨_, _, _, he, _⟩ := h
    cases he
  skip := by
    intro commit t1 h'
    rw [h'] at h
    obtain ⟨_, _, _, he, _⟩ := h
    cases he

theorem run_forgetting_ok {e : Emplacable σ T β} {s s1 : σ} {st : Started σ T β} (he : e s = .ok st s1) :
    run e Sink.forgetting (s, ()) = liftL st.finish (s1, ()) := by
  rw [run_skip he (commit := pure ()) rfl]
  exact Exec.bind_ok rfl

theorem run_dropping_ok {e : Emplacable σ T β} {s s1 : σ} {st : Started σ T β} (he : e s = .ok st s1) :
    run e Sink.dropping (s, ()) = (do liftL st.dropVal; liftL st.finish : Exec (σ × Unit) Unit) (s1, ()) := by
  rw [run_dropIt he (commit := pure ()) rfl]
  cases h : st.dropVal s1 with
  | ok u s2 => rw [Exec.bind_ok (liftL_ok h), Exec.bind_ok (liftL_ok h)]; exact Exec.bind_ok rfl
  | panic s2 => rw [Exec.bind_panic (liftL_panic h), Exec.bind_panic (liftL_panic h)]
  | abort => rw [Exec.bind_abort (liftL_abort h), Exec.bind_abort (liftL_abort h)]
  | ub => rw [Exec.bind_ub (liftL_ub h), Exec.bind_ub (liftL_ub h)]

theorem exchange_keeps {c : Cfg} {e : Emplacable σ T β} {m : Emplacer τ T β} {s : σ} {t : τ} (hs : e.Sound c s)
    (hd : run e Sink.dropping (s, ()) ≠ .ub) (hf : run e Sink.forgetting (s, ()) ≠ .ub)
    (hm : ∀ md s1, e.Announces s md s1 → m.Keeps md t) :
    (run e m (s, t)).Meets (fun _ st => Served e s st.1) (fun st => Blames e m s t st.1 st.2) (Ends e m s t) := by
  cases he : e s with
  | ub => exact absurd he hs.noUb
  | abort => unfold run; rw [Exec.bind_abort (liftL_abort he)]; exact .inr (.inl (.inl he))
  | panic s1 => unfold run; rw [Exec.bind_panic (liftL_panic he)]; exact .inr (.inl (.inl he))
  | ok st s1 =>
    have hk := hm st.md s1 ⟨st, he, rfl⟩
    have hl := hs.layout st s1 he
    cases hmm : m ⟨T.sizeOf st.md, T.alignOf st.md⟩ st.md t with
    | ub => exact absurd hmm hk.noUb
    | abort => unfold run; rw [Exec.bind_ok (liftL_ok he), hl, Exec.bind_abort (liftR_abort hmm)]; exact .inl ⟨st.md, s1, ⟨st, he, rfl⟩, .inl hmm⟩
    | panic t1 =>
      rw [run_prepPanic he (by rw [hl]; exact hmm)]
      exact .inl ⟨st.md, ⟨st, he, rfl⟩, .inl hmm⟩
    | ok p t1 =>
      cases p with
      | skip commit =>
        rw [run_skip he (by rw [hl]; exact hmm)]
        cases hc : commit t1 with
        | ub => exact absurd hc (hk.skip _ _ hmm)
        | abort => rw [Exec.bind_abort (liftR_abort hc)]; exact .inl ⟨st.md, s1, ⟨st, he, rfl⟩, .inr ⟨_, _, hmm, hc⟩⟩
        | panic t2 => rw [Exec.bind_panic (liftR_panic hc)]; exact .inl ⟨st.md, ⟨st, he, rfl⟩, .inr ⟨_, _, hmm, hc⟩⟩
        | ok u t2 =>
          rw [Exec.bind_ok (liftR_ok hc)]
          rw [run_forgetting_ok he] at hf
          cases hg : st.finish s1 with
          | ub => exact absurd (liftL_ub hg) hf
          | abort => rw [liftL_abort hg]; exact .inr (.inr (.inr (by rw [run_forgetting_ok he, liftL_abort hg])))
          | ok u s2 => rw [liftL_ok hg]; exact .inr (.inr (by rw [run_forgetting_ok he, liftL_ok hg]))
          | panic s2 =>
            rw [liftL_panic hg]
            exact .inr (.inr (.inr (.inr (by rw [run_forgetting_ok he, liftL_panic hg]))))
      | dropIt commit =>
        rw [run_dropIt he (by rw [hl]; exact hmm)]
        rw [run_dropping_ok he] at hd
        obtain ⟨t2, hc⟩ := hk.dropIt _ _ hmm
        cases hv : st.dropVal s1 with
        | ub => rw [Exec.bind_ub (liftL_ub hv)] at hd; exact absurd rfl hd
        | abort => rw [Exec.bind_abort (liftL_abort hv)]; exact .inr (.inr (.inl (by rw [run_dropping_ok he, Exec.bind_abort (liftL_abort hv)])))
        | panic s2 =>
          rw [Exec.bind_panic (liftL_panic hv)]
          exact .inr (.inr (.inr (.inl (by rw [run_dropping_ok he, Exec.bind_panic (liftL_panic hv)]))))
        | ok u s2 =>
          rw [Exec.bind_ok (liftL_ok hv), Exec.bind_ok (liftR_ok hc)]
          rw [Exec.bind_ok (liftL_ok hv)] at hd
          cases hg : st.finish s2 with
          | ub => exact absurd (liftL_ub hg) hd
          | abort => rw [liftL_abort hg]; exact .inr (.inr (.inl (by rw [run_dropping_ok he, Exec.bind_ok (liftL_ok hv), liftL_abort hg])))
          | ok u s3 => rw [liftL_ok hg]; exact .inr (.inl (by rw [run_dropping_ok he, Exec.bind_ok (liftL_ok hv), liftL_ok hg]))
          | panic s3 =>
            rw [liftL_panic hg]
            exact .inr (.inr (.inr (.inl (by rw [run_dropping_ok he, Exec.bind_ok (liftL_ok hv), liftL_panic hg]))))
      | place store commit rollback =>
        rw [run_place he (by rw [hl]; exact hmm)]
        cases hw : st.write s1 with
        | ub => exact absurd hw (hs.writeNoUb st s1 he)
        | abort =>
          rw [Exec.bind_abort]
          · exact .inr (.inl (.inr ⟨st, s1, he, .inl hw⟩))
          · unfold placeInto; dsimp only; rw [hw]
        | unwind bs s2 =>
          obtain ⟨t2, hst, ⟨t3, hrb⟩, _⟩ := hk.place _ _ _ _ hmm bs (hs.unwind st s1 bs s2 he hw)
          rw [Exec.bind_panic (s' := (s2, t3))]
          · exact .inr (.inl (.inr ⟨st, s1, bs, he, hw⟩))
          · unfold placeInto
            dsimp only
            rw [hw]
            dsimp only
            unfold Exec.onUnwind
            rw [Exec.bind_ok (liftR_ok hst), Exec.panic_apply]
            dsimp only
            rw [liftR_ok hrb]
        | done bs s2 =>
          obtain ⟨hlen, hfin⟩ := hs.done st s1 bs s2 he hw
          obtain ⟨t2, hst, _, hcm⟩ := hk.place _ _ _ _ hmm bs (Nat.le_of_eq hlen)
          obtain ⟨t3, hcm⟩ := hcm hlen
          have hpl : placeInto st.write store rollback (s1, t1) = .ok () (s2, t2) := by
            unfold placeInto; dsimp only; rw [hw]; exact liftR_ok hst
          rw [Exec.bind_ok hpl, Exec.bind_ok (liftR_ok hcm)]
          cases hg : st.finish s2 with
          | ub => exact absurd hg hfin
          | abort => rw [liftL_abort hg]; exact .inr (.inl (.inr ⟨st, s1, he, .inr ⟨bs, s2, hw, hg⟩⟩))
          | ok u s3 => rw [liftL_ok hg]; exact .inl ⟨⟨st.md, bs⟩, st, s1, s2, he, rfl, hw, hg⟩
          | panic s3 =>
            rw [liftL_panic hg]
            exact .inr (.inr (.inl ⟨⟨st.md, bs⟩, st, s1, s2, he, rfl, hw, hg⟩))

theorem firstPanic {X : Type} {f : X → Bool} {xs : List X} (h : ¬ ∀ x ∈ xs, f x = false) :
    ∃ ys y zs, xs = ys ++ y :: zs ∧ (∀ x ∈ ys, f x = false) ∧ f y = true := by
  induction xs with
  | nil => exact absurd (by simp) h
  | cons x xs ih =>
    cases hx : f x with
    | true => exact ⟨[], x, xs, rfl, by simp, hx⟩
    | false =>
      obtain ⟨ys, y, zs, rfl, h1, h2⟩ := ih (fun h' => h (by simpa [hx] using h'))
      exact ⟨x :: ys, y, zs, rfl, by simpa [hx] using h1, h2⟩

theorem SameOutcome.noUb {V X : Type} {r : Res (V × τ) Unit} {r' : Res (List X × τ) Unit} {Q Q' : V → List X → Prop}
    (h : SameOutcome r r' Q Q') (h' : r' ≠ .ub) : r ≠ .ub := by
  rintro rfl
  cases r' <;> first | exact h | exact h' rfl

end Verif
