import Verif.Proofs.CostCalls
import Verif.Proofs.Giving
import Verif.Proofs.ReserveInst
import Verif.Proofs.RaiseStep

/-!
# What sequences of calls cost
-/

namespace Verif

section
variable {V : Type} {T : UTy} {β : Type} {c : Cfg}

/-- Calls that all return. -/
theorem runOps_return {M : Machine V T β} {env : Env (Val T β)} {op : Val T β → Op T β} {J : V → List (Val T β) → Prop} {all : List (Val T β)}
    (step : ∀ v ys x rest, ys ++ x :: rest = all → J v ys → ∃ v1, (op x).exec c M env v = .ok .done v1 ∧ J v1 (ys ++ [x])) (zs : List (Val T β)) :
    ∀ v ys, ys ++ zs = all → J v ys → ∃ v', runOps c M (zs.map fun x => (env, op x)) v = .ok (zs.map fun _ => .done) v' ∧ J v' all := by
  induction zs with
  | nil => intro v ys h1 h2; rw [List.append_nil] at h1; exact ⟨v, rfl, h1 ▸ h2⟩
  | cons z zs ih =>
    intro v ys h1 h2
    obtain ⟨v1, h3, h4⟩ := step v ys z zs h1 h2
    obtain ⟨v', h5, h6⟩ := ih v1 (ys ++ [z]) (by rw [List.append_assoc]; exact h1) h4
    refine ⟨v', ?_, h6⟩
    have hc : caught ((op z).exec c M env) v = .ok .done v1 := by unfold caught; rw [h3]
    rw [List.map_cons, runOps, Exec.bind_ok hc, Exec.bind_ok h5]
    rfl

/-- The sum of the numbers below `n`. -/
def below : Nat → Nat
  | 0 => 0
  | n + 1 => below n + n

theorem below_eq : ∀ n, below n = n * (n - 1) / 2
  | 0 => rfl
  | 1 => rfl
  | n + 2 => by
    have h := below_eq (n + 1)
    have e : (n + 2) * (n + 2 - 1) = (n + 1) * (n + 1 - 1) + 2 * (n + 1) := by
      simp only [Nat.add_sub_cancel]
      show (n + 2) * (n + 1) = (n + 1) * n + 2 * (n + 1)
      rw [Nat.mul_comm (n + 2), Nat.mul_add, Nat.mul_comm 2]
    rw [e, Nat.add_mul_div_left _ _ (by omega), ← h]
    rfl

/-- Calls each of which copies the whole storage, and makes it larger. -/
theorem runOps_copying {M : Machine (V × Nat) T β} {env : Env (Val T β)} {op : Val T β → Op T β} {cap : V → Nat} {J : V → Prop} {s : Nat}
    (zs : List (Val T β)) : ∀ (_ : ∀ v, J v → ∀ x ∈ zs, ((op x).exec c M env).Meters v (fun _ t d => J t ∧ cap v + s ≤ cap t ∧ cap v ≤ d) (fun _ => True))
      (v : V) (n : Nat) (v' : V) (k : Nat), J v → runOps c M (zs.map fun x => (env, op x)) (v, n) = .ok (zs.map fun _ => .done) (v', k) →
      n + zs.length * cap v + below zs.length * s ≤ k := by
  induction zs with
  | nil =>
    intro _ v n v' k _ h
    cases h
    simp [below]
  | cons z zs ih =>
    intro step v n v' k hJ h
    have h1 := step v hJ z (List.mem_cons_self ..) n
    rw [List.map_cons, runOps, Exec.bind_apply] at h
    unfold caught at h
    cases he : (op z).exec c M env (v, n) with
    | abort => rw [he] at h; cases h
    | ub => rw [he] at h; cases h
    | panic t =>
      rw [he] at h
      dsimp only at h
      rw [Exec.bind_apply] at h
      cases hr : runOps c M (zs.map fun x => (env, op x)) t <;> rw [hr] at h <;> cases h
    | ok o t =>
      rw [he] at h h1
      obtain ⟨t, m⟩ := t
      obtain ⟨d, e1, e2, e3, e4⟩ := h1
      dsimp only at h e1 e2 e3 e4
      subst e1
      rw [Exec.bind_apply] at h
      cases hr : runOps c M (zs.map fun x => (env, op x)) (t, n + d) with
      | abort => rw [hr] at h; cases h
      | ub => rw [hr] at h; cases h
      | panic t => rw [hr] at h; cases h
      | ok os u =>
        rw [hr] at h
        have h : Res.ok (o :: os) u = Res.ok (Out.done :: zs.map fun _ => Out.done) (v', k) := h
        injection h with e5 e6
        injection e5 with _ e7
        subst e6 e7
        have h2 := ih (fun v hv x hx => step v hv x (List.mem_cons_of_mem _ hx)) t (n + d) v' k e2 hr
        have h3 : zs.length * (cap v + s) ≤ zs.length * cap t := Nat.mul_le_mul_left _ e3
        rw [Nat.mul_add] at h3
        rw [List.length_cons, below, Nat.add_mul, Nat.add_mul, Nat.one_mul]
        omega

end

/-! ## Pushing -/

section
variable {T : UTy} {A : ATy} {β : Type} [Inhabited β] {c : Cfg}

/-- What growing `elems_info` has cost is covered by the capacity that has been gained. -/
theorem records_step {cap len cap' maxCap : Nat} {grow : Nat → Except TRE Nat}
    (hi : ∀ n, ∃ k, grow n = .ok k ∧ n - 2 ≤ k ∧ k ≤ n + 4) (h1 : len ≤ cap) (h2 : cap ≤ 2 * len + 4) (h3 : 2 * len ≤ maxCap)
    (h : stdReserve maxCap cap len 1 grow = .ok cap') :
    (if cap' = cap then 0 else cap) + cap ≤ cap' ∧ cap' ≤ 2 * (len + 1) + 4 := by
  unfold stdReserve at h
  obtain ⟨k, e1, e2, e3⟩ := hi (len + 1)
  rw [e1] at h
  split at h
  · cases h
    rw [if_pos rfl]
    omega
  · split at h
    · cases h
    · dsimp only at h
      injection h with h
      split <;> omega

theorem AVec.pushes_cost (hA : A.Lawful c) {env : Env (Val A.ty β)} (hv : env.Valid) (he : env.Exact)
    (hg : ∀ l, env.alloc l ≠ none) (hi : ∀ n, ∃ k, env.infoGrow n = .ok k ∧ n - 2 ≤ k ∧ k ≤ n + 4) {xs : List (Val A.ty β)}
    (hx : ∀ x ∈ xs, x.WF c) (hlen : 2 * xs.length ≤ c.infoMax) (hsize : 2 * totalWidth id xs ≤ VS.max c A.ALIGN) :
    ∃ v' n, runOps c (alignedMetered c A) (xs.map fun x => (env, .push x)) (AVec.new, 0) = .ok (xs.map fun _ => .done) (v', n) ∧
      v'.Holds c xs ∧ n ≤ 3 * totalWidth id xs + 3 * xs.length + 4 := by
  have key := runOps_return (c := c) (M := alignedMetered c A) (env := env) (op := .push) (all := xs)
    (J := fun s ys => s.1.Holds c ys ∧ s.1.byteCap ≤ 2 * totalWidth id ys ∧ s.1.elemsCap ≤ 2 * ys.length + 4 ∧
      s.2 ≤ totalWidth id ys + ys.length + s.1.elemsCap + s.1.byteCap) ?_ xs (AVec.new, 0) [] rfl ?_
  · obtain ⟨⟨v', n⟩, h1, h2, h3, h4, h5⟩ := key
    exact ⟨v', n, h1, h2, by dsimp only at h3 h4 h5; omega⟩
  · rintro ⟨v, n⟩ ys x rest hall ⟨hH, hcap, hrec, hn⟩
    dsimp only at hH hcap hrec hn
    have hw : totalWidth id xs = totalWidth id ys + (x.size + totalWidth id rest) := by rw [← hall, totalWidth_append]; rfl
    have hl : xs.length = ys.length + (rest.length + 1) := by rw [← hall]; simp
    have hxw : x.WF c := hx x (by rw [← hall]; simp)
    obtain ⟨v1, h1, h2, h3, h4⟩ := AVec.push_step hA hv he hg (fun n => (hi n).imp fun _ h => h.1) hxw (by omega) (by omega) hH hcap
    have hp : (Op.push x).exec c (alignedM c A) env v = .ok .done v1 := Exec.bind_ok (giving_ok h1)
    obtain ⟨d, h5, _, h6, h7⟩ := (AVec.Metered.push_meters env x v).returns ((aligned_over A).exec (.push x)) hp n
    have hlv : v.len = ys.length := by unfold AVec.len; rw [hH.infos, infosFrom_length]
    rw [hlv] at h6
    obtain ⟨e1, e2⟩ := records_step hi hH.recs hrec (by omega) h6
    have hb : x.bytes.length = x.size := hxw.bytes_len
    have hws : totalWidth id (ys ++ [x]) = totalWidth id ys + (x.size + 0) := by rw [totalWidth_append]; rfl
    have hbm : AVec.Metered.blockMoved v v1 + v.byteCap ≤ v1.byteCap := by
      unfold AVec.Metered.blockMoved
      rcases h4 with ⟨_, h4⟩ | h4
      · rw [if_pos h4]; omega
      · split <;> omega
    have hrm : AVec.Metered.recordsMoved v v1 + v.elemsCap ≤ v1.elemsCap := e1
    refine ⟨_, h5, h2, h3, ?_, ?_⟩
    · rw [List.length_append]; exact e2
    · rw [hws, List.length_append]; dsimp only [List.length_singleton]; omega
  · exact ⟨AVec.new_holds hA.fits, Nat.zero_le _, Nat.zero_le _, Nat.zero_le _⟩

theorem UVec.pushes_cost (hu : IsAlign c c.usizeAlign) {env : Env (Val T β)} (hv : env.Valid) (he : env.Exact)
    (hg : ∀ l, env.alloc l ≠ none) (hi : ∀ n, ∃ k, env.infoGrow n = .ok k ∧ n - 2 ≤ k ∧ k ≤ n + 4) {xs : List (Val T β)}
    (hx : ∀ x ∈ xs, x.WF c ∧ x.align ≤ c.usizeAlign) (hlen : 2 * xs.length ≤ c.infoMax)
    (hsize : 2 * totalWidth (padTo c.usizeAlign) xs ≤ c.isizeMax) :
    ∃ v' n, runOps c (unalignedMetered c T) (xs.map fun x => (env, .push x)) (UVec.newAlignPtr c, 0) = .ok (xs.map fun _ => .done) (v', n) ∧
      v'.Holds c xs ∧ n ≤ 3 * totalWidth (padTo c.usizeAlign) xs + 3 * xs.length + 4 := by
  have key := runOps_return (c := c) (M := unalignedMetered c T) (env := env) (op := .push) (all := xs)
    (J := fun s ys => s.1.Holds c ys ∧ s.1.align = c.usizeAlign ∧ s.1.byteCap ≤ 2 * totalWidth (padTo c.usizeAlign) ys ∧ s.1.elemsCap ≤ 2 * ys.length + 4 ∧
      s.2 ≤ totalWidth (padTo c.usizeAlign) ys + ys.length + s.1.elemsCap + s.1.byteCap) ?_ xs (UVec.newAlignPtr c, 0) [] rfl ?_
  · obtain ⟨⟨v', n⟩, h1, h2, _, h3, h4, h5⟩ := key
    exact ⟨v', n, h1, h2, by dsimp only at h3 h4 h5; omega⟩
  · rintro ⟨v, n⟩ ys x rest hall ⟨hH, hal, hcap, hrec, hn⟩
    dsimp only at hH hal hcap hrec hn
    obtain ⟨hxw, hxa⟩ := hx x (by rw [← hall]; simp)
    rw [← hal] at hxa hcap hsize hn ⊢
    have hw : totalWidth (padTo v.align) xs =
        totalWidth (padTo v.align) ys + (padTo v.align x.size + totalWidth (padTo v.align) rest) := by
      rw [← hall, totalWidth_append]; rfl
    have hl : xs.length = ys.length + (rest.length + 1) := by rw [← hall]; simp
    have hlp := le_padTo hH.al.pos x.size
    obtain ⟨v1, h1, h2, h2', h3, h4⟩ := UVec.push_step hv he hg (fun n => (hi n).imp fun _ h => h.1) hxw hxa (by omega) (by omega) hH hcap
    have hp : (Op.push x).exec c (unalignedM c T) env v = .ok .done v1 := Exec.bind_ok (giving_ok h1)
    obtain ⟨d, h5, _, h6, h7, _⟩ := (UVec.Metered.push_meters env hxw.align_pow v).returns ((unaligned_over T).exec (.push x)) hp n
    have hlv : v.len = ys.length := by unfold UVec.len; rw [hH.infos, infosFrom_length]
    rw [hlv] at h6
    obtain ⟨e1, e2⟩ := records_step hi hH.recs hrec (by omega) h6
    have hb : x.bytes.length = x.size := hxw.bytes_len
    have hws : totalWidth (padTo v.align) (ys ++ [x]) = totalWidth (padTo v.align) ys + (padTo v.align x.size + 0) := by
      rw [totalWidth_append]; rfl
    have hbm : UVec.Metered.blockMoved c v v1 x.align + v.byteCap ≤ v1.byteCap := by
      unfold UVec.Metered.blockMoved
      rw [if_neg (Nat.not_lt.mpr hxa)]
      rcases h4 with ⟨_, h4⟩ | h4
      · rw [if_pos h4]; omega
      · split <;> omega
    have hat : UVec.Metered.attempt v x.align = 0 := if_neg (Nat.not_lt.mpr hxa)
    have hrm : UVec.Metered.recordsMoved v v1 + v.elemsCap ≤ v1.elemsCap := e1
    refine ⟨_, h5, h2, h2', h3, ?_, ?_⟩
    · rw [List.length_append]; exact e2
    · rw [hws, List.length_append]; dsimp only [List.length_singleton]; omega
  · exact ⟨UVec.newAlignPtr_holds hu, rfl, Nat.zero_le _, Nat.zero_le _, Nat.zero_le _⟩

/-- The alignment of the elements is any. Each time it has to be raised, everything pushed so far is moved at most three times. -/
theorem UVec.pushes_any_cost (hu : IsAlign c c.usizeAlign) {env : Env (Val T β)} (hv : env.Valid) (he : env.Exact)
    (hg : ∀ l, env.alloc l ≠ none) (hi : ∀ n, ∃ k, env.infoGrow n = .ok k ∧ n - 2 ≤ k ∧ k ≤ n + 4) {xs : List (Val T β)}
    (hx : ∀ x ∈ xs, x.WF c ∧ (0 < x.size ∨ x.align ≤ c.usizeAlign)) (hlen : 2 * xs.length ≤ c.infoMax)
    (hsize : 2 * totalWidth (padTo (topAlign c.usizeAlign xs)) xs ≤ c.isizeMax) :
    ∃ v' n, runOps c (unalignedMetered c T) (xs.map fun x => (env, .push x)) (UVec.newAlignPtr c, 0) = .ok (xs.map fun _ => .done) (v', n) ∧
      v'.Holds c xs ∧ v'.align = topAlign c.usizeAlign xs ∧
      n ≤ 3 * totalWidth (padTo (topAlign c.usizeAlign xs)) xs + 3 * xs.length + 4 +
        raises c.usizeAlign xs * (3 * totalWidth (padTo (topAlign c.usizeAlign xs)) xs + 4 * xs.length) := by
  have key := runOps_return (c := c) (M := unalignedMetered c T) (env := env) (op := .push) (all := xs)
    (J := fun s ys => s.1.Holds c ys ∧ s.1.align = topAlign c.usizeAlign ys ∧ s.1.byteCap ≤ 2 * totalWidth (padTo s.1.align) ys ∧ s.1.elemsCap ≤ 2 * ys.length + 4 ∧
      s.2 ≤ totalWidth (padTo s.1.align) ys + ys.length + s.1.elemsCap + s.1.byteCap +
        raises c.usizeAlign ys * (3 * totalWidth (padTo (topAlign c.usizeAlign xs)) xs + 4 * xs.length)) ?_ xs (UVec.newAlignPtr c, 0) [] rfl ?_
  · obtain ⟨⟨v', n⟩, h1, h2, h3, h4, h5, h6⟩ := key
    dsimp only at h3 h4 h5 h6
    rw [h3] at h4 h6
    exact ⟨v', n, h1, h2, h3, by omega⟩
  · rintro ⟨v, n⟩ ys x rest hall ⟨hH, hal, hcap, hrec, hn⟩
    dsimp only at hH hal hcap hrec hn
    obtain ⟨hxw, hxz⟩ := hx x (by rw [← hall]; simp)
    have htop : IsAlign c (topAlign c.usizeAlign xs) := topAlign_isAlign hu fun y hy => (hx y hy).1.align_pow
    have hma : max v.align x.align ≤ topAlign c.usizeAlign xs := by
      rw [← hall, topAlign_append, ← hal]; exact le_topAlign _ rest
    have hm := hH.al.max hxw.align_pow
    have hw : totalWidth (padTo (topAlign c.usizeAlign xs)) xs =
        totalWidth (padTo (topAlign c.usizeAlign xs)) ys + (padTo (topAlign c.usizeAlign xs) x.size + totalWidth (padTo (topAlign c.usizeAlign xs)) rest) := by
      rw [← totalWidth_cons, ← totalWidth_append, hall]
    have hw1 := totalWidth_mono_align hm.pos htop.pos (hm.dvd_of_le htop hma) ys
    have hw2 := padTo_le_of_dvd_dvd hm.pos htop.pos (hm.dvd_of_le htop hma) x.size
    have hw3 := totalWidth_mono_align hH.al.pos hm.pos (hH.al.dvd_of_le hm (Nat.le_max_left _ _)) ys
    have hl : xs.length = ys.length + (rest.length + 1) := by rw [← hall]; simp
    have hlp := le_padTo hm.pos x.size
    obtain ⟨v1, h1, h2, h2', h3, h3', h4⟩ := UVec.push_any_step hv he hg (fun n => (hi n).imp fun _ h => h.1) hxw
      (hxz.imp id fun h => Nat.le_trans h (hal ▸ le_topAlign _ _)) (by omega) (by omega) hH hcap
    have hp : (Op.push x).exec c (unalignedM c T) env v = .ok .done v1 := Exec.bind_ok (giving_ok h1)
    obtain ⟨d, h5, _, h6, h7, _⟩ := (UVec.Metered.push_meters env hxw.align_pow v).returns ((unaligned_over T).exec (.push x)) hp n
    have hlv : v.len = ys.length := by unfold UVec.len; rw [hH.infos, infosFrom_length]
    rw [hlv] at h6
    obtain ⟨e1, e2⟩ := records_step hi hH.recs hrec (by omega) h6
    have hb : x.bytes.length = x.size := hxw.bytes_len
    have hws : totalWidth (padTo (max v.align x.align)) (ys ++ [x]) = totalWidth (padTo (max v.align x.align)) ys + (padTo (max v.align x.align) x.size + 0) := by
      rw [totalWidth_append]; rfl
    have hrm : UVec.Metered.recordsMoved v v1 + v.elemsCap ≤ v1.elemsCap := e1
    have hr : raises c.usizeAlign (ys ++ [x]) = raises c.usizeAlign ys + if v.align < x.align then 1 else 0 := by
      rw [raises_append, hal]; rfl
    refine ⟨_, h5, h2, ?_, ?_, ?_, ?_⟩
    · rw [h2', topAlign_append, hal]; rfl
    · dsimp only; rw [h2']; exact h3
    · rw [List.length_append]; exact e2
    · dsimp only
      rw [h2', hws, List.length_append, hr]; dsimp only [List.length_singleton]
      by_cases hxa : v.align < x.align
      · have e3 := UVec.Metered.raising_le hH hxw.align_pow (Nat.le_of_lt hxa)
        have e4 : UVec.Metered.blockMoved c v v1 x.align = v.byteCap + UVec.Metered.raising c v x.align := if_pos hxa
        have e5 : UVec.Metered.attempt v x.align = v.len := if_pos hxa
        have e6 := totalWidth_mono (w := id) (le_padTo hH.al.pos) ys
        rw [if_pos hxa, Nat.add_mul, Nat.one_mul]
        omega
      · have hat : UVec.Metered.attempt v x.align = 0 := if_neg hxa
        have hbm : UVec.Metered.blockMoved c v v1 x.align + v.byteCap ≤ v1.byteCap := by
          unfold UVec.Metered.blockMoved
          rw [if_neg hxa]
          rcases h4 with h4 | ⟨_, h4⟩ | h4
          · exact absurd h4 hxa
          · rw [if_pos h4]; omega
          · split <;> omega
        simp only [if_neg hxa, Nat.add_zero]
        omega
  · exact ⟨UVec.newAlignPtr_holds hu, rfl, Nat.zero_le _, Nat.zero_le _, Nat.zero_le _⟩

end
end Verif
