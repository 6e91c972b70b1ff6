import Verif.Proofs.GrowthStep
import Verif.Spec.Raises

/-!
# Pushing elements of any alignment
-/

namespace Verif

section
variable {T : UTy} {β : Type} {c : Cfg}

theorem topAlign_append (a : Nat) (xs ys : List (Val T β)) : topAlign a (xs ++ ys) = topAlign (topAlign a xs) ys := by
  induction xs generalizing a with
  | nil => rfl
  | cons x xs ih => exact ih _

theorem raises_append (a : Nat) (xs ys : List (Val T β)) : raises a (xs ++ ys) = raises a xs + raises (topAlign a xs) ys := by
  induction xs generalizing a with
  | nil => simp [raises, topAlign]
  | cons x xs ih => show _ + raises _ (xs ++ ys) = _ + _ + raises (topAlign _ xs) ys; rw [ih]; omega

theorem le_topAlign (a : Nat) (xs : List (Val T β)) : a ≤ topAlign a xs := by
  induction xs generalizing a with
  | nil => exact Nat.le_refl _
  | cons x xs ih => exact Nat.le_trans (Nat.le_max_left _ _) (ih _)

theorem align_le_topAlign {a : Nat} {xs : List (Val T β)} {x : Val T β} (h : x ∈ xs) : x.align ≤ topAlign a xs := by
  induction xs generalizing a with
  | nil => cases h
  | cons y xs ih =>
    cases h with
    | head => exact Nat.le_trans (Nat.le_max_right a _) (le_topAlign _ _)
    | tail _ h => exact ih h

theorem topAlign_le {a m : Nat} (ha : a ≤ m) {xs : List (Val T β)} (hx : ∀ x ∈ xs, x.align ≤ m) : topAlign a xs ≤ m := by
  induction xs generalizing a with
  | nil => exact ha
  | cons x xs ih => exact ih (Nat.max_le.mpr ⟨ha, hx x (List.mem_cons_self ..)⟩) fun y hy => hx y (List.mem_cons_of_mem _ hy)

theorem topAlign_isAlign {a : Nat} (ha : IsAlign c a) {xs : List (Val T β)} (hx : ∀ x ∈ xs, IsAlign c x.align) : IsAlign c (topAlign a xs) := by
  induction xs generalizing a with
  | nil => exact ha
  | cons x xs ih => exact ih (ha.max (hx x (List.mem_cons_self ..))) fun y hy => hx y (List.mem_cons_of_mem _ hy)

/-- Each time the alignment at least doubles. -/
theorem pow_raises {a : Nat} (ha : IsAlign c a) {xs : List (Val T β)} (hx : ∀ x ∈ xs, IsAlign c x.align) :
    a * 2 ^ raises a xs ≤ topAlign a xs := by
  induction xs generalizing a with
  | nil => simp [raises, topAlign]
  | cons x xs ih =>
    have hxa := hx x (List.mem_cons_self ..)
    have h := ih (ha.max hxa) fun y hy => hx y (List.mem_cons_of_mem _ hy)
    refine Nat.le_trans ?_ h
    show a * 2 ^ ((if a < x.align then 1 else 0) + raises (max a x.align) xs) ≤ _
    split
    · rename_i hlt
      rw [Nat.max_eq_right (Nat.le_of_lt hlt), Nat.pow_add, Nat.pow_one, ← Nat.mul_assoc]
      refine Nat.mul_le_mul_right _ ?_
      obtain ⟨k, hk⟩ := ha.dvd_of_le hxa (Nat.le_of_lt hlt)
      rw [hk] at hlt ⊢
      refine Nat.mul_le_mul_left _ ?_
      rcases k with _ | _ | k
      · omega
      · omega
      · omega
    · rw [Nat.zero_add]; exact Nat.mul_le_mul_right _ (Nat.le_max_left _ _)

end

section
variable {T : UTy} {β : Type} [Inhabited β] {c : Cfg}

/-- `push` with an allocator that grants exactly what it is asked for, whatever the alignment of the element. -/
theorem UVec.push_any_step {env : Env (Val T β)} (hv : env.Valid) (he : env.Exact)
    (hg : ∀ l, env.alloc l ≠ none) (hi : ∀ n, ∃ k, env.infoGrow n = .ok k) {v : UVec T β} {ys : List (Val T β)}
    {x : Val T β} (hxw : x.WF c) (hz : 0 < x.size ∨ x.align ≤ v.align) (hlen : ys.length + 1 ≤ c.infoMax)
    (hsize : 2 * (totalWidth (padTo (max v.align x.align)) ys + padTo (max v.align x.align) x.size) ≤ c.isizeMax)
    (hH : v.Holds c ys) (hcap : v.byteCap ≤ 2 * totalWidth (padTo v.align) ys) :
    ∃ v1, Api.push c (unalignedP c T) env x v = .ok () v1 ∧ v1.Holds c (ys ++ [x]) ∧ v1.align = max v.align x.align ∧
      v1.byteCap ≤ 2 * totalWidth (padTo (max v.align x.align)) (ys ++ [x]) ∧ v.byteCap ≤ v1.byteCap ∧
      (v.align < x.align ∨ v1.heap.block = v.heap.block ∧ v1.byteCap = v.byteCap ∨ 2 * v.byteCap ≤ v1.byteCap) := by
  have hc := hH.cap
  have hm := hH.al.max hxw.align_pow
  have hpos := hm.pos
  have hle := Nat.le_max_left v.align x.align
  have hmono := totalWidth_mono_align hH.al.pos hpos (hH.al.dvd_of_le hm hle) ys
  have hdv : max v.align x.align ∣ totalWidth (padTo (max v.align x.align)) ys := dvd_totalWidth _
  have hlp := le_padTo hpos x.size
  have hdx : max v.align x.align ∣ padTo (max v.align x.align) x.size := dvd_padTo _ _
  have key := (UVec.impl True c T).push_meets hH ⟨hv, (fun _ => he)⟩ hxw (fun _ h0 => hz.resolve_left (by omega)) (fun _ => .inl (UVec.Represents.capDvd hH trivial))
  have hu : (UVec.impl True c T).unused v ys = v.byteCap - totalWidth (padTo v.align) ys := rfl
  have hbc : (UVec.impl True c T).bcap v = v.byteCap := rfl
  have hrq : ∀ n, ((UVec.impl True c T).request v ys n x.align).size = padTo (max v.align x.align) (v.byteCap +
      (totalWidth (padTo (max v.align x.align)) ys - totalWidth (padTo v.align) ys)) + padTo (max v.align x.align) n := by
    intro n
    show padTo (max v.align x.align) (padTo (max v.align x.align) (v.byteCap + (totalWidth (padTo (max v.align x.align)) ys -
      totalWidth (padTo v.align) ys)) + n) = _
    rw [padTo_add hpos (dvd_padTo _ _)]
  have hbig : ∀ n, (UVec.impl True c T).tooBig v ys n x.align ↔ c.isizeMax < ((UVec.impl True c T).request v ys n x.align).size :=
    fun _ => Iff.rfl
  generalize hW : totalWidth (padTo v.align) ys = W at *
  generalize hM : totalWidth (padTo (max v.align x.align)) ys = M at *
  generalize hX : padTo (max v.align x.align) x.size = X at *
  have hd2 : max v.align x.align ∣ 2 * M := Nat.dvd_trans hdv ⟨2, Nat.mul_comm _ _⟩
  -- the request for what is needed
  have hneed : ((UVec.impl True c T).request v ys (x.size - (v.byteCap - W)) x.align).size ≤ 2 * (M + X) := by
    rw [hrq]
    have h1 : padTo (max v.align x.align) (v.byteCap + (M - W)) ≤ 2 * M := padTo_least hpos hd2 (by omega)
    have h2 : padTo (max v.align x.align) (x.size - (v.byteCap - W)) ≤ X := padTo_least hpos hdx (by omega)
    omega
  -- the generous request
  have hmax : 0 < x.size - (v.byteCap - W) → ((UVec.impl True c T).request v ys (max (x.size - (v.byteCap - W)) v.byteCap) x.align).size ≤ 2 * (M + X) := by
    intro h0
    rw [hrq]
    have h1 : padTo (max v.align x.align) (v.byteCap + (M - W)) ≤ M + X := padTo_least hpos (Nat.dvd_add hdv hdx) (by omega)
    have h2 : padTo (max v.align x.align) (max (x.size - (v.byteCap - W)) v.byteCap) ≤ M + X := padTo_least hpos (Nat.dvd_add hdv hdx) (by omega)
    omega
  have hnr : ¬ (UVec.impl True c T).Refused env v ys 1 x.size x.align := by
    rintro (⟨err, h1⟩ | h1)
    · obtain ⟨k, h2⟩ := hi (ys.length + 1)
      rw [h2] at h1; cases h1
    · exact hg _ h1
  cases hp : Api.push c (unalignedP c T) env x v with
  | ub => rw [hp] at key; exact key.elim
  | abort => rw [hp] at key; exact absurd key hnr
  | panic v1 =>
    rw [hp] at key
    rcases key.2 with h1 | h1 | h1
    · exact absurd h1 hnr
    · have h1 : c.infoMax < ys.length + 1 := h1
      omega
    · rw [hbig, hu] at h1
      omega
  | ok u v1 =>
    rw [hp] at key
    obtain ⟨h1, _, w, hE, _, h2, h2a, h3⟩ := key
    have h1 : v1.Holds c (ys ++ [x]) := h1
    have h2 : v1.byteCap = (UVec.impl True c T).bcap w := h2
    have h2a : v1.align = w.align := h2a
    have h3 : (v1.ptr, v1.heap.block) = (UVec.impl True c T).block w := h3
    have hxv : x.align ≤ v1.align := Nat.le_of_dvd h1.al.pos (h1.elemAl x (by simp))
    have haw : w.align = max v.align x.align := by
      rcases hE.alignCases with h | h
      · exact h
      · have h : w.align = v.align := h
        omega
    have hww : (UVec.impl True c T).width v ys = W := hW
    have hww' : (UVec.impl True c T).width w ys = M := by
      show totalWidth (padTo w.align) ys = _
      rw [haw, hM]
    refine ⟨v1, rfl, h1, by rw [h2a, haw], ?_, ?_, ?_⟩
    · rw [totalWidth_append, hM]
      show _ ≤ 2 * (_ + (padTo (max v.align x.align) x.size + 0))
      rw [hX]
      rcases hE.tight he with h4 | ⟨h5, h4⟩ | h4
      · rw [h2, h4, hbc]; omega
      · rw [hu] at h5; have := hmax h5; rw [h2, h4, hbc, hu]; omega
      · rw [h2, h4, hu]; omega
    · rw [h2]; exact hE.bytesMono
    · by_cases hxa : v.align < x.align
      · exact .inl hxa
      · right
        by_cases hn : x.size ≤ v.byteCap - W
        · left
          obtain ⟨e1, e2, _⟩ := hE.calm (by rw [hww, hbc]; omega) (Nat.le_of_not_lt hxa)
          exact ⟨congrArg Prod.snd (h3.trans e2), h2.trans e1⟩
        · right
          have := hE.grown (by rw [hu]; omega) (by rw [hbig, hu, hbc]; have := hmax (by omega); omega) (hg _)
          rw [hww, hww', hbc, hu, ← h2] at this
          omega

end
end Verif
