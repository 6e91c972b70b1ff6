import Verif.Model.Bench
import Verif.Proofs.Stress
import Verif.Props.Cost
import Verif.Props.Stored

/-!
# The loop of the benchmarks
-/

namespace Verif
namespace Bench
open Stress
variable {V β : Type} [Inhabited β] {c : Cfg}

omit [Inhabited β] in
theorem lengths_bound {k : Nat} (hk : k ∈ lengths) : k ≤ 13 := by
  simp only [lengths, List.mem_cons, List.not_mem_nil, or_false] at hk
  omega

omit [Inhabited β] in
theorem element_wf (hal : IsAlign c 4) (hm : 55 ≤ c.isizeMax) {arr : Nat → List β} (ha : ∀ k ∈ lengths, (arr k).length = k * 4) {k : Nat}
    (hk : k ∈ lengths) : (array arr k).WF c :=
  array_wf hal (ha k hk) (by have := lengths_bound hk; omega)

theorem pushes_eq (env : Env (Val I32s.ty β)) (arr : Nat → List β) :
    ∀ ks, pushes c (alignedM c I32s) env arr ks = Stress.pushes c env arr ks
  | [] => rfl
  | k :: ks => by rw [pushes, Stress.pushes, pushes_eq env arr ks]

theorem turns_eq (env : Nat → Env (Val I32s.ty β)) (arr : Nat → List β) :
    ∀ r, turns c (alignedM c I32s) env arr r = Stress.turns c env arr r
  | 0 => rfl
  | r + 1 => by rw [turns, Stress.turns, turns_eq env arr r, pushes_eq]

/-! ## Any allocator -/

/-- The loop has been stopped by the element at some position. -/
def Stopped (c : Cfg) (v : AVec I32s β) (xs : List (Val I32s.ty β)) : Prop :=
  ∃ n x, xs[n]? = some x ∧ v.Holds c (xs.take n) ∧ v.drops = [x]

omit [Inhabited β] in
theorem Stopped.more {v : AVec I32s β} {xs : List (Val I32s.ty β)} (h : Stopped c v xs) (ys : List (Val I32s.ty β)) :
    Stopped c v (xs ++ ys) := by
  obtain ⟨n, x, h1, h2, h3⟩ := h
  obtain ⟨hn, _⟩ := List.getElem?_eq_some_iff.1 h1
  refine ⟨n, x, ?_, ?_, h3⟩
  · rw [List.getElem?_append_left hn]; exact h1
  · rw [List.take_append_of_le_length (Nat.le_of_lt hn)]; exact h2

theorem pushes_stops (hal : IsAlign c 4) {arr : Nat → List β} {env : Env (Val I32s.ty β)} (hv : env.Valid)
    (hd : ∀ x, env.dropPanics x = false) :
    ∀ {ks : List Nat} {v : AVec I32s β} {xs : List (Val I32s.ty β)}, v.Holds c xs → v.drops = [] → (∀ k ∈ ks, (array arr k).WF c) →
    (pushes c (alignedM c I32s) env arr ks v).Meets (fun _ v' => v'.Holds c (xs ++ ks.map (element arr)) ∧ v'.drops = [])
      (fun v' => Stopped c v' (xs ++ ks.map (element arr))) (∃ n l, env.Refuses n l)
  | [], v, xs, h, h0, _ => by
    refine ⟨?_, h0⟩
    rw [List.map_nil, List.append_nil]; exact h
  | k :: ks, v, xs, h, h0, hk => by
    have hA : I32s.Lawful c := C28_slice_lawful hal (by decide)
    have h1 := C51_pushUnsize_aligned hA h hv (md := (k : Nat)) rfl rfl (hk k (by simp))
    show ((Api.pushUnsize c (alignedM c I32s) env (k : Nat) (array arr k) >>= fun _ => pushes c (alignedM c I32s) env arr ks) v).Meets _ _ _
    refine (h1.mono (fun _ _ h => h) (fun v1 h2 => ?_) ?_).bind (fun _ v1 h2 => ?_)
    · refine ⟨xs.length, element arr k, ?_, ?_, ?_⟩
      · rw [List.getElem?_append_right (Nat.le_refl _), Nat.sub_self]; rfl
      · rw [List.take_append_of_le_length (Nat.le_refl _), List.take_length]; exact h2.1
      · rw [h2.2.1, h0]; rfl
    · rintro (h2 | ⟨h2, _⟩)
      · exact ⟨_, _, h2⟩
      · rw [hd] at h2; contradiction
    · have := pushes_stops hal hv hd (ks := ks) h2.1 (h2.2.trans h0) (fun j hj => hk j (by simp [hj]))
      rw [List.append_assoc] at this
      exact this

theorem turns_stops (hal : IsAlign c 4) {arr : Nat → List β} (ha : ∀ k ∈ lengths, (array arr k).WF c)
    {env : Nat → Env (Val I32s.ty β)} (hv : ∀ i, (env i).Valid) (hd : ∀ i x, (env i).dropPanics x = false) {v : AVec I32s β}
    (h : v.Holds c []) (h0 : v.drops = []) :
    ∀ r, (turns c (alignedM c I32s) env arr r v).Meets (fun _ v' => v'.Holds c (elements arr r) ∧ v'.drops = [])
      (fun v' => Stopped c v' (elements arr r)) (∃ i < r, ∃ n l, (env i).Refuses n l)
  | 0 => ⟨h, h0⟩
  | r + 1 => by
    show ((turns c (alignedM c I32s) env arr r >>= fun _ => pushes c (alignedM c I32s) (env r) arr lengths) v).Meets _ _ _
    rw [elements_succ]
    refine ((turns_stops hal ha hv hd h h0 r).mono (fun _ _ h => h) (fun _ h => h.more _) ?_).bind (fun _ v1 h1 => ?_)
    · rintro ⟨i, hi, h⟩; exact ⟨i, by omega, h⟩
    · exact (pushes_stops hal (hv r) (hd r) h1.1 h1.2 ha).mono (fun _ _ h => h) (fun _ h => h) (fun h => ⟨r, by omega, h⟩)

/-- What the whole benchmark does, once the vector has been made. -/
theorem finish_meets (hal : IsAlign c 4) {arr : Nat → List β} (ha : ∀ k ∈ lengths, (array arr k).WF c)
    {env : Nat → Env (Val I32s.ty β)} (hv : ∀ i, (env i).Valid) (hd : ∀ i x, (env i).dropPanics x = false)
    {envD : Env (Val I32s.ty β)} (hD : ∀ x, envD.dropPanics x = false) {v : AVec I32s β} (h : v.Holds c []) (h0 : v.drops = []) (r : Nat) :
    (finish c (alignedM c I32s) env envD arr r v).Meets
      (fun _ v' => v'.drops = elements arr r ∧ v'.heap.block = none ∧ v'.heap.leaks = 0)
      (fun v' => (∃ n x, (elements arr r)[n]? = some x ∧ v'.drops = x :: (elements arr r).take n) ∧
        v'.heap.block = none ∧ v'.heap.leaks = 0)
      (∃ i < r, ∃ n l, (env i).Refuses n l) := by
  have hA : I32s.Fits c := C28_slice_fits hal
  have key := turns_stops hal ha hv hd h h0 r
  unfold finish
  have h1 : (Exec.onUnwind (turns c (alignedM c I32s) env arr r) ((alignedM c I32s).drop envD) v).Meets
      (fun _ v' => v'.Holds c (elements arr r) ∧ v'.drops = [])
      (fun v' => (∃ n x, (elements arr r)[n]? = some x ∧ v'.drops = x :: (elements arr r).take n) ∧
        v'.heap.block = none ∧ v'.heap.leaks = 0)
      (∃ i < r, ∃ n l, (env i).Refuses n l) := by
    unfold Exec.onUnwind
    cases hx : turns c (alignedM c I32s) env arr r v with
    | ok u v1 => rw [hx] at key; exact key
    | abort => rw [hx] at key; exact key
    | ub => rw [hx] at key; exact key
    | panic v1 =>
      rw [hx] at key
      obtain ⟨n, x, g1, g2, g3⟩ := key
      obtain ⟨v2, m1, m2, m3, m4⟩ := C21_drop_aligned_returns hA g2 (env := envD) (fun x _ => hD x)
      have m1 : (alignedM c I32s).drop envD v1 = .ok () v2 := m1
      dsimp only
      rw [m1]
      exact ⟨⟨n, x, g1, by rw [m2, g3]; rfl⟩, m3, m4⟩
  refine h1.bind fun _ v1 g => ?_
  obtain ⟨v2, m1, m2, m3, m4⟩ := C21_drop_aligned_returns hA g.1 (env := envD) (fun x _ => hD x)
  have m1 : (alignedM c I32s).drop envD v1 = .ok () v2 := m1
  rw [m1]
  exact ⟨by rw [m2, g.2]; rfl, m3, m4⟩

/-! ## An allocator that grants everything -/

omit [Inhabited β] in
theorem caught_done {T : UTy} {m : Exec V (Out T β)} {v v' : V} (h : caught m v = .ok .done v') : m v = .ok .done v' := by
  unfold caught at h
  cases hm : m v <;> rw [hm] at h <;> simp_all

/-- A program of pushes that all return is the same as the loop. -/
theorem pushes_of_runOps (M : Machine V I32s.ty β) {arr : Nat → List β} {env : Env (Val I32s.ty β)} :
    ∀ {ks : List Nat} {rest : List (Val I32s.ty β)} {v v' : V}, (∀ k ∈ ks, (array arr k).WF c) →
    runOps c M ((ks.map (element arr) ++ rest).map fun x => (env, .push x)) v = .ok ((ks.map (element arr) ++ rest).map fun _ => .done) v' →
    ∃ v1, pushes c M env arr ks v = .ok () v1 ∧ runOps c M (rest.map fun x => (env, .push x)) v1 = .ok (rest.map fun _ => .done) v'
  | [], rest, v, v', _, h => ⟨v, rfl, h⟩
  | k :: ks, rest, v, v', hk, h => by
    rw [List.map_cons, List.cons_append, List.map_cons, List.map_cons, runOps] at h
    obtain ⟨o, v1, h1, h⟩ := Exec.bind_ok_inv h
    obtain ⟨os, v2, h2, h⟩ := Exec.bind_ok_inv h
    have h : Res.ok (o :: os) v2 = Res.ok (.done :: ((ks.map (element arr) ++ rest).map fun _ => .done)) v' := h
    injection h with h3 h4
    injection h3 with h3 h5
    subst h3 h4 h5
    have h1 := caught_done h1
    have h1 : (M.giving env (element arr k) (Api.push c M.P env (element arr k)) >>= fun _ => pure Out.done) v = .ok .done v1 := h1
    obtain ⟨_, v3, h6, h7⟩ := Exec.bind_ok_inv h1
    cases h7
    obtain ⟨v4, h8, h9⟩ := pushes_of_runOps M (fun j hj => hk j (by simp [hj])) h2
    refine ⟨v4, ?_, h9⟩
    have hp : Api.pushUnsize c M env (k : Nat) (array arr k) v = .ok () v1 := by
      unfold Api.pushUnsize
      exact (Exec.bind_ok (evalSlot_unsize (U := I32s.ty) (md := (k : Nat)) rfl (hk k (by simp)) v)).trans h6
    show (Api.pushUnsize c M env (k : Nat) (array arr k) >>= fun _ => pushes c M env arr ks) v = _
    rw [Exec.bind_ok hp]; exact h8

theorem turns_of_runOps (M : Machine V I32s.ty β) {arr : Nat → List β} (ha : ∀ k ∈ lengths, (array arr k).WF c)
    {env : Env (Val I32s.ty β)} :
    ∀ {r : Nat} {rest : List (Val I32s.ty β)} {v v' : V},
    runOps c M ((elements arr r ++ rest).map fun x => (env, .push x)) v = .ok ((elements arr r ++ rest).map fun _ => .done) v' →
    ∃ v1, turns c M (fun _ => env) arr r v = .ok () v1 ∧ runOps c M (rest.map fun x => (env, .push x)) v1 = .ok (rest.map fun _ => .done) v'
  | 0, rest, v, v', h => ⟨v, rfl, h⟩
  | r + 1, rest, v, v', h => by
    rw [elements_succ, List.append_assoc] at h
    obtain ⟨v1, h1, h2⟩ := turns_of_runOps M ha h
    obtain ⟨v2, h3, h4⟩ := pushes_of_runOps M ha h2
    refine ⟨v2, ?_, h4⟩
    show (turns c M (fun _ => env) arr r >>= fun _ => pushes c M env arr lengths) v = _
    rw [Exec.bind_ok h1]; exact h3

theorem turns_of_all (M : Machine V I32s.ty β) {arr : Nat → List β} (ha : ∀ k ∈ lengths, (array arr k).WF c)
    {env : Env (Val I32s.ty β)} {r : Nat} {v v' : V}
    (h : runOps c M ((elements arr r).map fun x => (env, .push x)) v = .ok ((elements arr r).map fun _ => .done) v') :
    turns c M (fun _ => env) arr r v = .ok () v' := by
  rw [← List.append_nil (elements arr r)] at h
  obtain ⟨v1, h1, h2⟩ := turns_of_runOps M ha h
  cases h2
  exact h1

omit [Inhabited β] in
theorem elements_wf {arr : Nat → List β} (ha : ∀ k ∈ lengths, (array arr k).WF c) : ∀ r, ∀ x ∈ elements arr r, x.WF c
  | 0, x, hx => by cases hx
  | r + 1, x, hx => by
    rw [elements_succ, List.mem_append] at hx
    rcases hx with hx | hx
    · exact elements_wf ha r x hx
    · obtain ⟨k, hk, rfl⟩ := List.mem_map.1 hx
      exact (ha k hk).coerced (U := I32s.ty) (md := (k : Nat)) rfl rfl

end Bench
end Verif
