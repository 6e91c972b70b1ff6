import Verif.Proofs.BuildsHolds
import Verif.Spec.Select

/-! # Lemmas for C70 -/

namespace Verif
variable {T : UTy} {β : Type}

theorem AlongList.imp {Q Q' : Env (Val T β) → Op T β → List (Val T β) → Prop} (h : ∀ env op xs, Q env op xs → Q' env op xs) :
    ∀ {ops : List (Env (Val T β) × Op T β)} {s : Ideal T β}, AlongList Q ops s → AlongList Q' ops s
  | [], _, _ => trivial
  | (_, _) :: _, _, hs => ⟨h _ _ _ hs.1, fun o s' ha => AlongList.imp h (hs.2 o s' ha)⟩

variable {c : Cfg}

theorem SVec.covered_atEnds {sz al : Nat} {env : Env (Val (sizedTy sz al) β)} {op : Op (sizedTy sz al) β} {xs : List (Val (sizedTy sz al) β)}
    (h : op.AtEnds env xs) : SVec.Covered env op xs := by
  cases op with
  | push x => exact h
  | insert i x => exact fun _ => h.1
  | remove i d => cases d <;> first | trivial | exact h.2.2 rfl | exact h.2.1 rfl
  | _ => first | trivial | exact h.elim

theorem AVec.covered_atEnds {A : ATy} {env : Env (Val A.ty β)} {op : Op A.ty β} {xs : List (Val A.ty β)}
    (h : op.AtEnds env xs) : AVec.Covered env op xs := by
  cases op with
  | insert i x => exact fun hi => by cases h.2 hi; rfl
  | remove i d => cases d <;> first | trivial | exact h.2.2 rfl
  | _ => first | trivial | exact h.elim

/-- The greatest alignment. -/
theorem greatest_isAlign (hb : 0 < c.bits) : IsAlign c (2 ^ (c.bits - 1)) := ⟨_, by omega, rfl⟩

theorem IsAlign.le_greatest {a : Nat} : IsAlign c a → a ≤ 2 ^ (c.bits - 1) := by
  rintro ⟨k, hk, rfl⟩
  exact Nat.pow_le_pow_right (by decide) (by omega)

theorem UVec.plain_atEnds {lo : Nat} {env : Env (Val T β)} {op : Op T β} {xs : List (Val T β)} (hw : op.WF c xs)
    (h : op.AtEnds env xs) : UVec.Plain c lo (2 ^ (c.bits - 1)) env op xs := by
  cases op with
  | push x => exact ⟨IsAlign.le_greatest hw.align_pow, .inl h⟩
  | pushWith s => cases s <;> first | exact ⟨IsAlign.le_greatest hw.align_pow, .inl h⟩ | trivial | exact h.elim
  | insert i x => exact ⟨⟨IsAlign.le_greatest hw.align_pow, .inl h.1⟩, h.2⟩
  | insertWith i s =>
    cases s <;> first | trivial | exact h.elim | skip
    refine ⟨⟨IsAlign.le_greatest hw.align_pow, .inl h.1⟩, fun hi y hy => ?_⟩
    cases h.2 (Nat.le_of_eq hi)
    rw [List.eq_nil_of_length_eq_zero hi.symm] at hy
    cases hy
  | remove i d => exact ⟨fun _ hi => absurd h.1 (Nat.ne_of_gt hi), h.2.2⟩
  | _ => first | trivial | exact h.elim

end Verif
