import Verif.Model.Stress
import Verif.Props.Fill
import Verif.Props.Owned
import Verif.Props.Drop
import Verif.Props.GrowthExact

/-!
# Exact capacities
-/

namespace Verif

namespace Impl
variable {V : Type} {T : UTy} {β : Type} [Inhabited β] {c : Cfg} {P : Provider V T β} (I : Impl c P) {v : V} {xs : List (Val T β)}

/-- With an exact allocator, a request to the exact family that returns `Ok` gives the storage that it has asked for, or leaves the
storage alone. -/
theorem exact_bytes (h : I.H v xs) {env : Env (Val T β)} (he : I.EnvOk env) (hx : env.Exact) (n b : Nat) {al : Nat} (hal : IsAlign c al)
    {v' : V} (hr : Api.tryReserveExactCapacityBytesAlign P env n b al v = .ok (.ok ()) v') :
    I.H v' xs ∧ I.drops v' = I.drops v ∧ xs.length + n ≤ P.capacity v' ∧
      (I.bcap v' = I.bcap v ∨ I.bcap v' = (I.request v xs b al).size) ∧
      (P.align v' = max (P.align v) al ∨ P.align v' = P.align v) := by
  unfold Api.tryReserveExactCapacityBytesAlign at hr
  rcases I.tryReserve h env n with ⟨v1, h1, hH, hd, hw, hbc, hali, hblk, hrec, hmono, hid, hrq, htb, hfit⟩ | ⟨e, h1, hwhy, _⟩
  rotate_left
  · rw [Exec.bind_ok h1] at hr; cases hr
  rw [Exec.bind_ok h1] at hr
  dsimp only at hr
  unfold Api.toAlign at hr
  rw [I.alignNew hal] at hr
  dsimp only at hr
  rw [Exec.pure_bind_apply] at hr
  rcases I.addBytes hH he hal b with ⟨v2, h2, hH2, hd2, hsp2, hm2, hc2, hid2, ht2, ha2, hac2, hf2⟩ | ⟨e, h2, hwhy, _⟩
  · rw [h2] at hr
    cases hr
    refine ⟨hH2, hd2.trans hd, hc2 ▸ hrec, ?_, ?_⟩
    · rw [← hbc, ← hrq]; exact ht2 hx
    · rw [← hali]; exact hac2
  · rw [h2] at hr; cases hr

end Impl

section
variable {V : Type} {T : UTy} {β : Type} {c : Cfg}

/-- A method without `try_` that returns has been served. -/
theorem unwrapped {m : Exec V (Except TRE Unit)} {v v' : V} (h : (m >>= unwrapReserve) v = .ok () v') : m v = .ok (.ok ()) v' := by
  obtain ⟨r, v1, h1, h2⟩ := Exec.bind_ok_inv h
  cases r with
  | ok u => cases h2; exact h1
  | error e => cases e <;> cases h2

end

namespace Stress
variable {β : Type} [Inhabited β] {c : Cfg}

/-- What is stored for the array of `k` numbers. -/
def element (arr : Nat → List β) (k : Nat) : Val I32s.ty β := ⟨k, arr k⟩

omit [Inhabited β] in
theorem array_wf (hal : IsAlign c 4) {arr : Nat → List β} {k : Nat} (hk : (arr k).length = k * 4) (hm : k * 4 + 3 ≤ c.isizeMax) :
    (array arr k).WF c :=
  ⟨hk, hal, ⟨k, Nat.mul_comm k 4⟩, hm⟩

theorem pushes_idle (hal : IsAlign c 4) {arr : Nat → List β} (env : Env (Val I32s.ty β)) :
    ∀ {ks : List Nat} {v : AVec I32s β} {xs : List (Val I32s.ty β)}, v.Holds c xs →
    (∀ k ∈ ks, (arr k).length = k * 4 ∧ k * 4 + 3 ≤ c.isizeMax) → xs.length + ks.length ≤ v.elemsCap →
    totalWidth id xs + ks.sum * 4 ≤ v.byteCap →
    ∃ v', pushes c env arr ks v = .ok () v' ∧ v'.Holds c (xs ++ ks.map (element arr)) ∧ v'.drops = v.drops ∧
      v'.elemsCap = v.elemsCap ∧ v'.byteCap = v.byteCap
  | [], v, xs, h, _, _, _ => ⟨v, rfl, by rw [List.map_nil, List.append_nil]; exact h, rfl, rfl, rfl⟩
  | k :: ks, v, xs, h, hk, h1, h2 => by
    rw [List.length_cons] at h1
    rw [List.sum_cons, Nat.add_mul] at h2
    obtain ⟨hl, hm⟩ := hk k (by simp)
    have hw := array_wf hal hl hm
    have hA : I32s.Lawful c := C28_slice_lawful hal (by decide)
    have hwf : (element arr k).WF c := hw.coerced (U := I32s.ty) (md := (k : Nat)) rfl rfl
    obtain ⟨v1, g1, g2, g3, g4, g5, _⟩ := C15_fill_aligned hA.fits (ys := [(env, element arr k)]) h
      (fun y hy => by rw [List.mem_singleton.1 hy]; exact hwf) (by simp only [List.length_singleton]; omega)
      (by
        simp only [List.map_cons, List.map_nil, totalWidth_cons, totalWidth_nil]
        show totalWidth id xs + (k * 4 + 0) ≤ v.byteCap
        omega)
    have g2 : v1.Holds c (xs ++ [element arr k]) := by
      have := g2
      simp only [List.map_cons, List.map_nil, Function.comp, hA.stored] at this
      exact this
    have hp : Api.pushUnsize c (alignedM c I32s) env (k : Nat) (array arr k) v = .ok () v1 := by
      unfold Api.pushUnsize
      refine (Exec.bind_ok (evalSlot_unsize (U := I32s.ty) (md := (k : Nat)) rfl hw v)).trans ?_
      have g1 : (Api.push c (alignedP c I32s) env (element arr k) >>= fun _ => pure ()) v = .ok () v1 := g1
      obtain ⟨_, v2, g6, g7⟩ := Exec.bind_ok_inv g1
      cases g7
      show Exec.onUnwind (Api.push c (alignedP c I32s) env (element arr k)) _ v = _
      unfold Exec.onUnwind
      rw [g6]
    obtain ⟨v', k1, k2, k3, k4, k5⟩ := pushes_idle hal env (ks := ks) g2 (fun j hj => hk j (by simp [hj]))
      (by rw [List.length_append, List.length_singleton, g4]; omega)
      (by
        rw [totalWidth_append, totalWidth_cons, totalWidth_nil, g5]
        show totalWidth id xs + (k * 4 + 0) + _ ≤ v.byteCap
        omega)
    refine ⟨v', ?_, ?_, k3.trans g3, k4.trans g4, k5.trans g5⟩
    · show (Api.pushUnsize c (alignedM c I32s) env (k : Nat) (array arr k) >>= fun _ => pushes c env arr ks) v = _
      rw [Exec.bind_ok hp]; exact k1
    · rw [List.append_assoc] at k2; exact k2

/-- The elements after `r` turns. -/
def elements (arr : Nat → List β) (r : Nat) : List (Val I32s.ty β) := (List.replicate r ([0, 1, 2, 3, 4, 13].map (element arr))).flatten

omit [Inhabited β] in
theorem elements_succ (arr : Nat → List β) (r : Nat) : elements arr (r + 1) = elements arr r ++ lengths.map (element arr) := by
  unfold elements
  rw [List.replicate_succ', List.flatten_append, List.flatten_singleton]
  rfl

omit [Inhabited β] in
theorem elements_length (arr : Nat → List β) : ∀ r, (elements arr r).length = 6 * r
  | 0 => rfl
  | r + 1 => by
    rw [elements_succ, List.length_append, elements_length arr r, List.length_map]
    show 6 * r + 6 = _
    omega

omit [Inhabited β] in
theorem elements_width (arr : Nat → List β) : ∀ r, totalWidth id (elements arr r) = 92 * r
  | 0 => rfl
  | r + 1 => by
    rw [elements_succ, totalWidth_append, elements_width arr r]
    show 92 * r + 92 = _
    omega

theorem turns_idle (hal : IsAlign c 4) {arr : Nat → List β} (ha : ∀ k ∈ lengths, (arr k).length = k * 4 ∧ k * 4 + 3 ≤ c.isizeMax)
    (env : Nat → Env (Val I32s.ty β)) {v : AVec I32s β} (h : v.Holds c []) :
    ∀ {r : Nat}, 6 * r ≤ v.elemsCap → 92 * r ≤ v.byteCap →
    ∃ v', turns c env arr r v = .ok () v' ∧ v'.Holds c (elements arr r) ∧ v'.drops = v.drops ∧
      v'.elemsCap = v.elemsCap ∧ v'.byteCap = v.byteCap
  | 0, _, _ => ⟨v, rfl, h, rfl, rfl, rfl⟩
  | r + 1, h1, h2 => by
    obtain ⟨v1, g1, g2, g3, g4, g5⟩ := turns_idle hal ha env h (r := r) (by omega) (by omega)
    obtain ⟨v', k1, k2, k3, k4, k5⟩ := pushes_idle hal (env r) (ks := lengths) g2 ha
      (by rw [elements_length, g4]; show 6 * r + 6 ≤ _; omega) (by rw [elements_width, g5]; show 92 * r + 23 * 4 ≤ _; omega)
    refine ⟨v', ?_, ?_, k3.trans g3, k4.trans g4, k5.trans g5⟩
    · show (turns c env arr r >>= fun _ => pushes c (env r) arr lengths) v = _
      rw [Exec.bind_ok g1]; exact k1
    · rw [elements_succ]; exact k2

/-- Without assumptions on the room: what has been pushed is there. -/
theorem pushes_meets (hal : IsAlign c 4) {arr : Nat → List β} {env : Env (Val I32s.ty β)} (hv : env.Valid) :
    ∀ {ks : List Nat} {v : AVec I32s β} {xs : List (Val I32s.ty β)}, v.Holds c xs →
    (∀ k ∈ ks, (arr k).length = k * 4 ∧ k * 4 + 3 ≤ c.isizeMax) →
    (pushes c env arr ks v).Meets (fun _ v' => v'.Holds c (xs ++ ks.map (element arr))) (fun v' => ∃ ys, v'.Holds c ys) True
  | [], v, xs, h, _ => by show AVec.Holds c v _; rw [List.map_nil, List.append_nil]; exact h
  | k :: ks, v, xs, h, hk => by
    obtain ⟨hl, hm⟩ := hk k (by simp)
    have hA : I32s.Lawful c := C28_slice_lawful hal (by decide)
    have h1 := C51_pushUnsize_aligned hA h hv (md := (k : Nat)) rfl rfl (array_wf hal hl hm)
    show ((Api.pushUnsize c (alignedM c I32s) env (k : Nat) (array arr k) >>= fun _ => pushes c env arr ks) v).Meets _ _ _
    refine (h1.mono (fun _ _ h => h) (fun v1 h2 => ⟨_, h2.1⟩) (fun _ => trivial)).bind (fun _ v1 h2 => ?_)
    have := pushes_meets hal hv (ks := ks) h2.1 (fun j hj => hk j (by simp [hj]))
    rw [List.append_assoc] at this
    exact this

theorem turns_meets (hal : IsAlign c 4) {arr : Nat → List β} (ha : ∀ k ∈ lengths, (arr k).length = k * 4 ∧ k * 4 + 3 ≤ c.isizeMax)
    {env : Nat → Env (Val I32s.ty β)} (hv : ∀ i, (env i).Valid) {v : AVec I32s β} (h : v.Holds c []) :
    ∀ r, (turns c env arr r v).Meets (fun _ v' => v'.Holds c (elements arr r)) (fun v' => ∃ ys, v'.Holds c ys) True
  | 0 => h
  | r + 1 => by
    show ((turns c env arr r >>= fun _ => pushes c (env r) arr lengths) v).Meets _ _ _
    refine (turns_meets hal ha hv h r).bind (fun _ v1 h1 => ?_)
    rw [elements_succ]
    exact pushes_meets hal (hv r) h1 ha

end Stress
end Verif
