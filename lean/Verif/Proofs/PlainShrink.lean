import Verif.Spec.PlainShrink
import Verif.Proofs.Plain
import Verif.Proofs.Shrink

/-!
# Programs that shrink: proofs
-/

namespace Verif
namespace UVec
variable {T : UTy} {β : Type} {c : Cfg} {hi : Nat} {env : Env (Val T β)} {op : Op T β} {xs : List (Val T β)}

/-- Shrinking is covered. -/
theorem PlainShrink.shrink {v : UVec T β} (hv : v.Holds c xs) (hhi : IsAlign c hi) (hh : v.align ≤ hi) {q : Shrinking}
    (h : PlainShrink c hi env (.shrink q) xs) : Covered True c env (.shrink q) v xs := by
  obtain ⟨h1, h2, h3⟩ := h
  have ha : v.align ∣ hi := hv.al.dvd_of_le hhi hh
  have hb := shrunkAlign_isAlign hv h1
  have hd : v.shrunkAlign xs (q.align c) ∣ v.align := hb.dvd_of_le hv.al (shrunkAlign_le hv _)
  refine ⟨h1, fun x hx => ?_, fun _ => ?_⟩
  · rw [padTo_of_dvd hv.al.pos (Nat.dvd_trans ha (h3 x hx)), padTo_of_dvd hb.pos (Nat.dvd_trans (Nat.dvd_trans hd ha) (h3 x hx))]
  · have hm : v.shrunkAlign xs (q.align c) ∣ min (q.bytes c) v.byteCap := by
      have h4 := Nat.dvd_trans hd (hv.capDvd trivial)
      rcases Nat.le_total (q.bytes c) v.byteCap with h5 | h5
      · rw [Nat.min_eq_left h5]
        rcases h2 with h2 | h2
        · exact Nat.dvd_trans (Nat.dvd_trans hd ha) h2
        · have := hv.room
          rw [show q.bytes c = v.byteCap by omega]
          exact h4
      · rw [Nat.min_eq_right h5]; exact h4
    show _ ∣ max _ _
    rcases Nat.le_total (min (q.bytes c) v.byteCap) (totalWidth (padTo (v.shrunkAlign xs (q.align c))) xs) with h5 | h5
    · rw [Nat.max_eq_right h5]; exact dvd_totalWidth _
    · rw [Nat.max_eq_left h5]; exact hm

variable [Inhabited β]

/-- Shrinking does not raise the alignment. -/
theorem shrink_align {v v' : UVec T β} (hv : v.Holds c xs) (he : env.Valid) {q : Shrinking} {o : Out T β}
    (h : Covered True c env (.shrink q) v xs) (hr : caught ((Op.shrink q).exec c (unalignedM c T) env) v = .ok o v') : v'.align ≤ v.align := by
  have h1 : (q.run c (unalignedP c T) env v).Meets (fun _ v' => v'.align ≤ v.align) (fun _ => False) True := by
    rw [q.run_unaligned env h.1]
    refine (shrinkTo_meets hv he _ _ h.1 h.2.1).mono (fun _ v' h' => ?_) (fun _ h => h) (fun _ => trivial)
    rcases h'.size with ⟨_, h2, _⟩ | ⟨_, _, h2⟩
    · exact Nat.le_of_eq h2
    · rw [h2]; exact shrunkAlign_le hv _
  have h2 : (Op.shrink q).exec c (unalignedM c T) env v = (do q.run c (unalignedP c T) env; pure .done : Exec (UVec T β) (Out T β)) v := rfl
  unfold caught at hr
  rw [h2] at hr
  cases hm : q.run c (unalignedP c T) env v with
  | ok u w =>
    rw [Exec.bind_ok hm] at hr
    rw [hm] at h1
    cases hr
    exact h1
  | panic w => rw [hm] at h1; exact h1.elim
  | abort =>
    have : (do q.run c (unalignedP c T) env; pure .done : Exec (UVec T β) (Out T β)) v = .abort := by
      show Exec.bind _ _ v = _
      unfold Exec.bind; rw [hm]
    rw [this] at hr; cases hr
  | ub => rw [hm] at h1; exact h1.elim

theorem PlainShrink.step {v : UVec T β} (hv : v.Holds c xs) (he : env.Valid) (hw : op.WF c xs) (hhi : IsAlign c hi) (hh : v.align ≤ hi)
    (h : PlainShrink c hi env op xs) : Covered True c env op v xs ∧
      ∀ o v', caught (op.exec c (unalignedM c T) env) v = .ok o v' → v'.align ≤ hi := by
  by_cases hs : ∃ q, op = .shrink q
  · obtain ⟨q, rfl⟩ := hs
    have h1 := PlainShrink.shrink hv hhi hh h
    exact ⟨h1, fun o v' hr => Nat.le_trans (shrink_align hv he h1 hr) hh⟩
  · have h1 : Plain c 1 hi env op xs := by
      cases op <;> first | exact absurd ⟨_, rfl⟩ hs | exact h
    exact ⟨h1.covered hv hw hhi hv.al.pos hh, fun o v' hr => (h1.bounds hv.al.pos hh hr).2⟩

theorem plainShrink_along (hhi : IsAlign c hi) : ∀ {p : List (Env (Val T β) × Op T β)} {v : UVec T β} {s : Ideal T β},
    AlongList (fun env op xs => (env.Valid ∧ env.Exact) ∧ op.WF c xs ∧ PlainShrink c hi env op xs) p s →
    Tracks (unalignedM c T) (Holds c) v s → v.align ≤ hi →
    Along c (unalignedM c T) (Holds c) (fun env op v xs => (env.Valid ∧ (True → env.Exact)) ∧ op.WF c xs ∧ Covered True c env op v xs) p v s
  | [], _, _, _, _, _ => trivial
  | (_, _) :: _, _, _, ⟨⟨h1, h2, h3⟩, h4⟩, ht, hh => by
    obtain ⟨h5, h6⟩ := h3.step ht.1 h1.1 h2 hhi hh
    exact ⟨⟨⟨h1.1, fun _ => h1.2⟩, h2, h5⟩, fun o v' s' hr ht' ha => plainShrink_along hhi (h4 o s' ha) ht' (h6 o v' hr)⟩

theorem plainShrink_throughout (hhi : IsAlign c hi) {σ : Strategy T β} : ∀ {n : Nat} {h : List (Out T β)} {v : UVec T β} {s : Ideal T β},
    ThroughoutList (fun env op xs => (env.Valid ∧ env.Exact) ∧ op.WF c xs ∧ PlainShrink c hi env op xs) σ n h s →
    Tracks (unalignedM c T) (Holds c) v s → v.align ≤ hi →
    Throughout c (unalignedM c T) (Holds c) (fun env op v xs => (env.Valid ∧ (True → env.Exact)) ∧ op.WF c xs ∧ Covered True c env op v xs) σ n h v s
  | 0, _, _, _, _, _, _ => trivial
  | _ + 1, _, _, _, hT, ht, hh => fun env op ho => by
    obtain ⟨⟨h1, h2, h3⟩, h4⟩ := hT env op ho
    obtain ⟨h5, h6⟩ := h3.step ht.1 h1.1 h2 hhi hh
    exact ⟨⟨⟨h1.1, fun _ => h1.2⟩, h2, h5⟩, fun o v' s' hr ht' ha => plainShrink_throughout hhi (h4 o s' ha) ht' (h6 o v' hr)⟩

end UVec
end Verif
