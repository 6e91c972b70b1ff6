import Verif.Proofs.CostS
import Verif.Proofs.HistoryInst

/-!
# What sequences of calls cost: sized elements
-/

namespace Verif
variable {sz al : Nat} {β : Type} [Inhabited β] {c : Cfg}

/-- The two ways of adding a value at the end. -/
def Adds (op : Val (sizedTy sz al) β → Op (sizedTy sz al) β) : Prop := op = .push ∨ op = fun x => .pushWith (.value x)

theorem SVec.adds_return {op : Val (sizedTy sz al) β → Op (sizedTy sz al) β} (hop : Adds op) (hz : 0 < sz) {env : Env (Val (sizedTy sz al) β)}
    {v : SVec sz al β} {xs : List (Val (sizedTy sz al) β)} (h : v.Holds c xs) {x : Val (sizedTy sz al) β} (hx : x.WF c) (hn : ¬ v.NoSlot c env) :
    ∃ v1, (op x).exec c (sizedM c sz al) env v = .ok .done v1 ∧ v1.Holds c (xs ++ [x]) := by
  have key : (SVec.client (c := c) (β := β)).Good env (op x) v ⟨xs, v.drops⟩ := by
    rcases hop with rfl | rfl
    · exact SVec.client.step (v := v) (s := ⟨xs, v.drops⟩) trivial ⟨h, rfl⟩ _ hx hz
    · exact SVec.client.step (v := v) (s := ⟨xs, v.drops⟩) trivial ⟨h, rfl⟩ _ hx trivial
  unfold Client.Good caught at key
  cases he : (op x).exec c (sizedM c sz al) env v with
  | ub => rw [he] at key; exact key.elim
  | abort =>
    rw [he] at key
    rcases hop with rfl | rfl <;> exact key.elim (fun h => absurd h hn) (fun h => False.elim h)
  | panic t =>
    rw [he] at key
    obtain ⟨s', _, h2 | ⟨h2, _⟩⟩ := key
    · rcases hop with rfl | rfl <;> cases h2
    · rcases hop with rfl | rfl <;> exact absurd h2 hn
  | ok o t =>
    rw [he] at key
    obtain ⟨s', h1, h2 | ⟨h2, _⟩⟩ := key
    · rcases hop with rfl | rfl <;> (cases h2; exact ⟨t, rfl, h1.1⟩)
    · rcases hop with rfl | rfl <;> exact absurd h2 hn

/-- Adding values one by one costs at most three times their bytes, plus four elements. -/
theorem SVec.adds_cost {op : Val (sizedTy sz al) β → Op (sizedTy sz al) β} (hop : Adds op) (hz : 0 < sz) {env : Env (Val (sizedTy sz al) β)}
    (hi : ∀ n, ∃ k, env.infoGrow n = .ok k ∧ n - 2 ≤ k ∧ k ≤ n + 4) {xs : List (Val (sizedTy sz al) β)}
    (hx : ∀ x ∈ xs, x.WF c) (hlen : 2 * xs.length ≤ SVec.maxSlots c sz) :
    ∃ v' n, runOps c (sizedMetered c sz al) (xs.map fun x => (env, op x)) (SVec.new, 0) = .ok (xs.map fun _ => .done) (v', n) ∧
      v'.Holds c xs ∧ n ≤ (3 * xs.length + 4) * sz := by
  have key := runOps_return (c := c) (M := sizedMetered c sz al) (env := env) (op := op) (all := xs)
    (J := fun s ys => s.1.Holds c ys ∧ s.1.slots ≤ 2 * ys.length + 4 ∧ s.2 ≤ (ys.length + s.1.slots) * sz) ?_ xs (SVec.new, 0) [] rfl ?_
  · obtain ⟨⟨v', n⟩, h1, h2, h3, h4⟩ := key
    refine ⟨v', n, h1, h2, Nat.le_trans h4 (Nat.mul_le_mul_right _ ?_)⟩
    dsimp only at h3 ⊢
    omega
  · rintro ⟨v, n⟩ ys x rest hall ⟨hH, hrec, hn⟩
    dsimp only at hH hrec hn
    have hl : xs.length = ys.length + (rest.length + 1) := by rw [← hall]; simp
    have hxw : x.WF c := hx x (by rw [← hall]; simp)
    have hno : ¬ v.NoSlot c env := by
      rintro ⟨_, e, h1 | h1⟩
      · have := h1.2; rw [hH.len] at this; omega
      · obtain ⟨k, h2, _⟩ := hi (v.len + 1); rw [h1] at h2; cases h2
    obtain ⟨v1, h1, h2⟩ := SVec.adds_return hop hz hH hxw hno
    have hm : ((op x).exec c (sizedMetered c sz al) env).Meters v
      (fun o t d => o = .done ∧ stdReserve (SVec.maxSlots c sz) v.slots v.len 1 env.infoGrow = .ok t.slots ∧
        d = SVec.Metered.blockMoved v t + x.bytes.length)
      (fun d => d ≤ v.slots * sz + x.bytes.length) := by
      rcases hop with rfl | rfl
      · exact SVec.Metered.push_meters hz env x v
      · exact SVec.Metered.pushWith_op_meters hz env x v
    obtain ⟨d, h5, _, h6, rfl⟩ := hm.returns ((sized_over sz al).exec (op x)) h1 n
    rw [hH.len] at h6
    have hcap := hH.cap
    rw [SVec.Metered.capacity_pos hz] at hcap
    obtain ⟨e1, e2⟩ := records_step hi hcap hrec (by omega) h6
    have hb : x.bytes.length = sz := hxw.bytes_len
    have hbm : SVec.Metered.blockMoved v v1 = (if v1.slots = v.slots then 0 else v.slots) * sz := by
      unfold SVec.Metered.blockMoved; split <;> simp
    refine ⟨_, h5, h2, ?_, ?_⟩
    · rw [List.length_append]; exact e2
    · dsimp only
      have e3 := Nat.mul_le_mul_right sz e1
      rw [hbm, hb, List.length_append, List.length_singleton]
      simp only [Nat.add_mul, Nat.one_mul] at e3 hn ⊢
      omega
  · exact ⟨SVec.new_holds, Nat.zero_le _, Nat.zero_le _⟩

end Verif
