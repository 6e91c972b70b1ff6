import Verif.Spec.Plain
import Verif.Spec.Interact
import Verif.Proofs.NoLoss
import Verif.Proofs.HistoryInst

/-!
# Calls that are covered whatever state the vector is in: proofs
-/

namespace Verif
variable {T : UTy} {β : Type} {c : Cfg}

namespace UVec
variable {lo hi : Nat} {env : Env (Val T β)} {op : Op T β} {xs : List (Val T β)}

theorem Plain.grows (h : Plain c lo hi env op xs) : op.Grows := by
  cases op <;> first | trivial | exact h

theorem Plain.asks (h : Plain c lo hi env op xs) : op.asks ≤ hi := by
  cases op with
  | pushWith s => cases s <;> first | exact h.1 | exact Nat.zero_le _
  | insertWith i s => cases s <;> first | exact h.1.1 | exact Nat.zero_le _
  | push x => exact h.1
  | insert i x => exact h.1.1
  | reserve q => exact h.2
  | tryReserve q => exact h.2
  | _ => exact Nat.zero_le _

theorem Addable.zst {v : UVec T β} {n al : Nat} (h : Addable lo hi n al) (hl : lo ≤ v.align) : v.ZstOk n al :=
  fun _ h0 => h.2.elim (fun h1 => absurd h0 (Nat.ne_of_gt h1)) (fun h1 => Nat.le_trans h1 hl)

theorem Plain.covered {v : UVec T β} (hv : v.Holds c xs) (hw : op.WF c xs) (hhi : IsAlign c hi) (hl : lo ≤ v.align) (hh : v.align ≤ hi)
    (h : Plain c lo hi env op xs) : Covered True c env op v xs := by
  have hd : v.align ∣ hi := IsAlign.dvd_of_le hv.al hhi hh
  have hins : ∀ {i al}, IsAlign c al → al ≤ hi → (i = xs.length → ∀ y, xs.getLast? = some y → hi ∣ y.size) → i ≤ xs.length →
      InsertOk xs i (max v.align al) := by
    intro i al hal h1 h2 h3
    rcases Nat.lt_or_eq_of_le h3 with h4 | h4
    · exact .inl h4
    · refine .inr (.inr fun y hy => Nat.dvd_trans ?_ (h2 h4 y hy))
      rcases Nat.le_total v.align al with h5 | h5
      · rw [Nat.max_eq_right h5]; exact IsAlign.dvd_of_le hal hhi h1
      · rw [Nat.max_eq_left h5]; exact hd
  cases op with
  | push x => exact ⟨h.zst hl, fun h => absurd trivial h⟩
  | pushWith s => cases s <;> first | exact Addable.zst h hl | trivial
  | insert i x =>
    refine ⟨h.1.zst hl, fun h => absurd trivial h, fun hi' => ?_⟩
    obtain rfl := h.2 hi'
    refine ⟨?_, rfl⟩
    cases xs with
    | nil => exact .inr (.inl rfl)
    | cons y ys => exact .inl (Nat.succ_pos _)
  | insertWith i s =>
    cases s with
    | value x => exact ⟨h.1.zst hl, hins hw.align_pow h.1.1 h.2⟩
    | fails md bs => exact ⟨h.1.zst hl, hins hw.1.1 h.1.1 h.2⟩
    | panics => trivial
  | remove i d =>
    refine ⟨fun h1 h2 => ?_, h.2⟩
    rcases Nat.lt_or_eq_of_le (Nat.succ_le_of_lt h2) with h3 | h3
    · exact .inl h3
    · rcases Nat.eq_zero_or_pos i with h4 | h4
      · exact .inr (.inl h4)
      · exact .inr (.inr fun y hy => Nat.dvd_trans hd (h.1 h1 h4 h3 y hy))
  | reserve q => exact h.1
  | tryReserve q => exact h.1
  | shrink q => exact h.elim
  | iter ks => exact h
  | iterMut ks bss => exact h
  | _ => trivial

variable [Inhabited β]

/-- The alignment stays within the bounds. -/
theorem Plain.bounds {v v' : UVec T β} {o : Out T β} (h : Plain c lo hi env op xs) (hl : lo ≤ v.align) (hh : v.align ≤ hi)
    (hr : caught (op.exec c (unalignedM c T) env) v = .ok o v') : lo ≤ v'.align ∧ v'.align ≤ hi := by
  have h1 := Op.exec_keeps (c := c) (env := env) (M := unalignedM c T) (Lossless.pre (a := hi)) machine_keeps provider_keeps h.grows h.asks v
  unfold caught at hr
  have h2 : Lossless hi v v' := by
    cases hm : op.exec c (unalignedM c T) env v with
    | ok o v' => rw [hm] at h1 hr; cases hr; exact h1.1
    | panic v' => rw [hm] at h1 hr; cases hr; exact h1
    | abort => rw [hm] at hr; cases hr
    | ub => rw [hm] at hr; cases hr
  have h3 := h2.align
  have h4 := h2.asked
  omega

theorem plain_along (hhi : IsAlign c hi) : ∀ {p : List (Env (Val T β) × Op T β)} {v : UVec T β} {s : Ideal T β},
    AlongList (fun env op xs => (env.Valid ∧ env.Exact) ∧ op.WF c xs ∧ Plain c lo hi env op xs) p s →
    Tracks (unalignedM c T) (Holds c) v s → lo ≤ v.align → v.align ≤ hi →
    Along c (unalignedM c T) (Holds c) (fun env op v xs => (env.Valid ∧ (True → env.Exact)) ∧ op.WF c xs ∧ Covered True c env op v xs) p v s
  | [], _, _, _, _, _, _ => trivial
  | (_, _) :: _, _, _, ⟨⟨h1, h2, h3⟩, h4⟩, ht, hl, hh => by
    refine ⟨⟨⟨h1.1, fun _ => h1.2⟩, h2, h3.covered ht.1 h2 hhi hl hh⟩, fun o v' s' hr ht' ha => ?_⟩
    obtain ⟨hl', hh'⟩ := h3.bounds hl hh hr
    exact plain_along hhi (h4 o s' ha) ht' hl' hh'

theorem plain_throughout (hhi : IsAlign c hi) {σ : Strategy T β} : ∀ {n : Nat} {h : List (Out T β)} {v : UVec T β} {s : Ideal T β},
    ThroughoutList (fun env op xs => (env.Valid ∧ env.Exact) ∧ op.WF c xs ∧ Plain c lo hi env op xs) σ n h s →
    Tracks (unalignedM c T) (Holds c) v s → lo ≤ v.align → v.align ≤ hi →
    Throughout c (unalignedM c T) (Holds c) (fun env op v xs => (env.Valid ∧ (True → env.Exact)) ∧ op.WF c xs ∧ Covered True c env op v xs) σ n h v s
  | 0, _, _, _, _, _, _, _ => trivial
  | _ + 1, _, _, _, hT, ht, hl, hh => fun env op ho => by
    obtain ⟨⟨h1, h2, h3⟩, h4⟩ := hT env op ho
    refine ⟨⟨⟨h1.1, fun _ => h1.2⟩, h2, h3.covered ht.1 h2 hhi hl hh⟩, fun o v' s' hr ht' ha => ?_⟩
    obtain ⟨hl', hh'⟩ := h3.bounds hl hh hr
    exact plain_throughout hhi (h4 o s' ha) ht' hl' hh'

end UVec
end Verif
