import Verif.Proofs.UImpl
import Verif.Proofs.AImpl

/-!
# One push onto a vector that has been filled by pushes
-/

namespace Verif
section
variable {T : UTy} {A : ATy} {β : Type} [Inhabited β] {c : Cfg}

theorem AVec.push_step (hA : A.Lawful c) {env : Env (Val A.ty β)} (hv : env.Valid) (he : env.Exact)
    (hg : ∀ l, env.alloc l ≠ none) (hi : ∀ n, ∃ k, env.infoGrow n = .ok k) {v : AVec A β} {ys : List (Val A.ty β)}
    {x : Val A.ty β} (hxw : x.WF c) (hlen : ys.length + 1 ≤ c.infoMax) (hsize : 2 * (totalWidth id ys + x.size) ≤ VS.max c A.ALIGN)
    (hH : v.Holds c ys) (hcap : v.byteCap ≤ 2 * totalWidth id ys) :
    ∃ v1, Api.push c (alignedP c A) env x v = .ok () v1 ∧ v1.Holds c (ys ++ [x]) ∧ v1.byteCap ≤ 2 * totalWidth id (ys ++ [x]) ∧
      (v1.heap.block = v.heap.block ∧ v1.byteCap = v.byteCap ∨ 2 * v.byteCap ≤ v1.byteCap) := by
  have hc := hH.cap
  have key := (AVec.impl hA).push_meets hH hv hxw (fun _ _ => trivial) (fun _ => trivial)
  have hu : (AVec.impl hA).unused v ys = v.byteCap - totalWidth id ys := rfl
  have hbc : (AVec.impl hA).bcap v = v.byteCap := rfl
  have hrq : ∀ n, (AVec.impl hA).request v ys n x.align = ⟨v.byteCap + n, A.ALIGN⟩ := fun _ => rfl
  have hnr : ¬ (AVec.impl hA).Refused env v ys 1 x.size x.align := by
    rintro (⟨err, h1⟩ | h1)
    · obtain ⟨k, h2⟩ := hi (ys.length + 1)
      rw [h2] at h1; cases h1
    · exact hg _ h1
  cases hp : Api.push c (alignedP c A) env x v with
  | ub => rw [hp] at key; exact key.elim
  | abort => rw [hp] at key; exact absurd key hnr
  | panic v1 =>
    rw [hp] at key
    rcases key.2 with h1 | h1 | h1
    · exact absurd h1 hnr
    · have h1 : c.infoMax < ys.length + 1 := h1
      omega
    · have h1 : VS.max c A.ALIGN < v.byteCap + (x.size - (v.byteCap - totalWidth id ys)) := h1
      omega
  | ok u v1 =>
    rw [hp] at key
    obtain ⟨h1, _, w, hE, _, h2, _, h3⟩ := key
    have h2 : v1.byteCap = (AVec.impl hA).bcap w := h2
    have h3 : (v1.ptr, v1.heap.block) = (AVec.impl hA).block w := h3
    have hww : ∀ v, (AVec.impl hA).width v ys = totalWidth id ys := fun _ => rfl
    refine ⟨v1, rfl, h1, ?_, ?_⟩
    · rw [totalWidth_append]
      show _ ≤ 2 * (_ + (x.size + 0))
      rcases hE.tight he with h4 | ⟨h5, h4⟩ | h4
      · rw [h2, h4, hbc]; omega
      · rw [h2, h4, hbc, hu, hrq]; rw [hu] at h5; dsimp only; omega
      · rw [h2, h4, hu, hrq]; dsimp only; omega
    · by_cases hn : x.size ≤ v.byteCap - totalWidth id ys
      · left
        obtain ⟨e1, e2, _⟩ := hE.calm (by rw [hww, hbc]; omega) trivial
        exact ⟨congrArg Prod.snd (h3.trans e2), h2.trans e1⟩
      · right
        have := hE.grown (by rw [hu]; omega)
          (show ¬ VS.max c A.ALIGN < v.byteCap + max (x.size - (v.byteCap - totalWidth id ys)) v.byteCap by omega) (hg _)
        rw [hww, hww, hbc, hu, ← h2] at this
        omega

theorem UVec.push_step {env : Env (Val T β)} (hv : env.Valid) (he : env.Exact)
    (hg : ∀ l, env.alloc l ≠ none) (hi : ∀ n, ∃ k, env.infoGrow n = .ok k) {v : UVec T β} {ys : List (Val T β)}
    {x : Val T β} (hxw : x.WF c) (hxa : x.align ≤ v.align) (hlen : ys.length + 1 ≤ c.infoMax)
    (hsize : 2 * (totalWidth (padTo v.align) ys + padTo v.align x.size) ≤ c.isizeMax)
    (hH : v.Holds c ys) (hcap : v.byteCap ≤ 2 * totalWidth (padTo v.align) ys) :
    ∃ v1, Api.push c (unalignedP c T) env x v = .ok () v1 ∧ v1.Holds c (ys ++ [x]) ∧ v1.align = v.align ∧
      v1.byteCap ≤ 2 * totalWidth (padTo v.align) (ys ++ [x]) ∧
      (v1.heap.block = v.heap.block ∧ v1.byteCap = v.byteCap ∨ 2 * v.byteCap ≤ v1.byteCap) := by
  have hc := hH.cap
  have hpos := hH.al.pos
  have key := (UVec.impl True c T).push_meets hH ⟨hv, (fun _ => he)⟩ hxw (fun _ _ => hxa) (fun _ => .inl (UVec.Represents.capDvd hH trivial))
  have hu : (UVec.impl True c T).unused v ys = v.byteCap - totalWidth (padTo v.align) ys := rfl
  have hbc : (UVec.impl True c T).bcap v = v.byteCap := rfl
  have hrq : ∀ n, ((UVec.impl True c T).request v ys n x.align).size = v.byteCap + padTo v.align n := by
    intro n
    show padTo (max v.align x.align) (padTo (max v.align x.align) (v.byteCap + (totalWidth (padTo (max v.align x.align)) ys -
      totalWidth (padTo v.align) ys)) + n) = _
    rw [Nat.max_eq_left hxa, Nat.sub_self, Nat.add_zero, padTo_of_dvd hpos (hH.capDvd trivial), padTo_add hpos (hH.capDvd trivial)]
  have hbig : ∀ n, (UVec.impl True c T).tooBig v ys n x.align ↔ c.isizeMax < v.byteCap + padTo v.align n := by
    intro n
    rw [← hrq]; rfl
  have hneed : padTo v.align (x.size - (v.byteCap - totalWidth (padTo v.align) ys)) ≤
      padTo v.align x.size - (v.byteCap - totalWidth (padTo v.align) ys) := by
    refine padTo_least hpos (Nat.dvd_sub (dvd_padTo _ _) (Nat.dvd_sub (hH.capDvd trivial) (dvd_totalWidth _))) ?_
    have := le_padTo hpos x.size
    omega
  have hmax : padTo v.align (max (x.size - (v.byteCap - totalWidth (padTo v.align) ys)) v.byteCap) ≤
      max (padTo v.align x.size - (v.byteCap - totalWidth (padTo v.align) ys)) v.byteCap := by
    rcases Nat.le_total (x.size - (v.byteCap - totalWidth (padTo v.align) ys)) v.byteCap with h | h
    · rw [Nat.max_eq_right h, padTo_of_dvd hpos (hH.capDvd trivial)]; exact Nat.le_max_right _ _
    · rw [Nat.max_eq_left h]; exact Nat.le_trans hneed (Nat.le_max_left _ _)
  have hlp := le_padTo hpos x.size
  have hnr : ¬ (UVec.impl True c T).Refused env v ys 1 x.size x.align := by
    rintro (⟨err, h1⟩ | h1)
    · obtain ⟨k, h2⟩ := hi (ys.length + 1)
      rw [h2] at h1; cases h1
    · exact hg _ h1
  cases hp : Api.push c (unalignedP c T) env x v with
  | ub => rw [hp] at key; exact key.elim
  | abort => rw [hp] at key; exact absurd key hnr
  | panic v1 =>
    rw [hp] at key
    rcases key.2 with h1 | h1 | h1
    · exact absurd h1 hnr
    · have h1 : c.infoMax < ys.length + 1 := h1
      omega
    · rw [hbig, hu] at h1
      omega
  | ok u v1 =>
    rw [hp] at key
    obtain ⟨h1, _, w, hE, _, h2, h2a, h3⟩ := key
    have h2 : v1.byteCap = (UVec.impl True c T).bcap w := h2
    have h2a : v1.align = w.align := h2a
    have h3 : (v1.ptr, v1.heap.block) = (UVec.impl True c T).block w := h3
    have haw : w.align = v.align := by
      rcases hE.alignCases with h | h
      · exact h.trans (Nat.max_eq_left hxa)
      · exact h
    have hww : (UVec.impl True c T).width v ys = totalWidth (padTo v.align) ys := rfl
    have hww' : (UVec.impl True c T).width w ys = totalWidth (padTo v.align) ys := by
      show totalWidth (padTo w.align) ys = _
      rw [haw]
    refine ⟨v1, rfl, h1, by rw [h2a, haw], ?_, ?_⟩
    · rw [totalWidth_append]
      show _ ≤ 2 * (_ + (padTo v.align x.size + 0))
      rcases hE.tight he with h4 | ⟨h5, h4⟩ | h4
      · rw [h2, h4, hbc]; omega
      · rw [h2, h4, hbc, hu, hrq]; rw [hu] at h5; omega
      · rw [h2, h4, hu, hrq]; omega
    · by_cases hn : x.size ≤ v.byteCap - totalWidth (padTo v.align) ys
      · left
        obtain ⟨e1, e2, _⟩ := hE.calm (by rw [hww, hbc]; omega) hxa
        exact ⟨congrArg Prod.snd (h3.trans e2), h2.trans e1⟩
      · right
        have := hE.grown (by rw [hu]; omega) (by rw [hbig, hu, hbc]; omega) (hg _)
        rw [hww, hww', hbc, hu, ← h2] at this
        omega

end
end Verif
