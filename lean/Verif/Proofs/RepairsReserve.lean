import Verif.Proofs.Repairs
import Verif.Proofs.ZstExact
import Verif.Proofs.ReserveInst
import Verif.Proofs.Inversion

/-!
# The corrected reservation
-/

namespace Verif
namespace UVec
variable {T : UTy} {β : Type} [Inhabited β] {c : Cfg} {G : Prop} {v : UVec T β} {xs : List (Val T β)}

/-- The change matters only if there is no memory and none is needed. -/
theorem reserveCommitRepaired_eq (env : Env (Val T β)) {add b : Nat} (hb : IsAlign c b) (cost : Nat)
    (hne : ¬ (v.align < b ∧ v.byteCap = 0 ∧ add = 0 ∧ cost = 0)) :
    reserveCommitRepaired c env add b cost v = reserveCommit c env add b cost v := by
  unfold reserveCommitRepaired reserveCommit
  rw [Exec.get_bind, Exec.get_bind]
  dsimp only
  rw [Exec.orUb_bind (checkedAddPad2 hb), Exec.orUb_bind (checkedAddPad2 hb)]
  by_cases hov : padTo b (padTo b (v.byteCap + cost) + add) ≤ c.isizeMax
  rotate_left
  · rw [if_neg hov]
  rw [if_pos hov]
  dsimp only
  by_cases hg : v.align < b ∨ v.byteCap < padTo b (padTo b (v.byteCap + cost) + add)
  rotate_left
  · rw [if_neg hg, if_neg hg]
  rw [if_pos hg, if_pos hg]
  have hp1 := le_padTo hb.pos (v.byteCap + cost)
  have hp2 := le_padTo hb.pos (padTo b (v.byteCap + cost) + add)
  have hpos : padTo b (padTo b (v.byteCap + cost) + add) > 0 := by
    by_cases h0 : padTo b (padTo b (v.byteCap + cost) + add) > 0
    · exact h0
    · exact absurd ⟨by omega, by omega, by omega, by omega⟩ hne
  rw [if_pos hpos, if_pos hpos]
  rfl

theorem tryReserveAdditionalRepaired_eq (h : v.Represents G c xs) (env : Env (Val T β)) {add al : Nat} (hal : IsAlign c al)
    (hne : ¬ (v.align < al ∧ v.byteCap = 0 ∧ add = 0)) :
    tryReserveAdditionalRepaired c env add al v = tryReserveAdditionalBytesAlign c env add al v := by
  have hb : IsAlign c (max v.align al) := h.al.max hal
  have key : ∀ cost, reserveCommitRepaired c env add (max v.align al) cost v = reserveCommit c env add (max v.align al) cost v :=
    fun cost => reserveCommitRepaired_eq env hb cost fun ⟨h1, h2, h3, _⟩ => hne ⟨by omega, h2, h3⟩
  unfold tryReserveAdditionalRepaired tryReserveAdditionalBytesAlign
  rw [Exec.get_bind, Exec.get_bind, Exec.orUb_bind (alignedByteLen_eq h), Exec.orUb_bind (alignedByteLen_eq h)]
  by_cases hlt : v.align < max v.align al
  · rw [if_pos hlt, if_pos hlt, Exec.debugAssert_bind (Nat.le_of_lt hlt), Exec.debugAssert_bind (Nat.le_of_lt hlt)]
    cases hl : v.lenAfterRealignUp c (max v.align al) with
    | none => rfl
    | some r =>
      rw [Exec.orUb_bind rfl, Exec.orUb_bind rfl]
      cases r with
      | none => rfl
      | some n =>
        dsimp only
        cases hs : VSU.uncheckedSub c n (totalWidth (padTo v.align) xs) with
        | none => rfl
        | some k => rw [Exec.orUb_bind rfl, Exec.orUb_bind rfl]; exact key k
  · rw [if_neg hlt, if_neg hlt]
    by_cases h0 : add = 0
    · rw [if_pos h0, if_pos h0]
    · rw [if_neg h0, if_neg h0]
      cases hs : VSU.uncheckedSub c (totalWidth (padTo v.align) xs) (totalWidth (padTo v.align) xs) with
      | none => rfl
      | some k => rw [Exec.orUb_bind rfl, Exec.orUb_bind rfl]; exact key k

/-- Only the alignment is asked for, and there is no memory: the pointer and the alignment change. -/
theorem tryReserveAdditionalRepaired_alignOnly (h : v.Represents G c xs) (env : Env (Val T β)) {al : Nat} (hal : IsAlign c al)
    (h0 : v.byteCap = 0) (hlt : v.align < al) :
    tryReserveAdditionalRepaired c env 0 al v = .ok (.ok ()) { v with ptr := al, align := al } := by
  have hcap := h.cap
  have hm : max v.align al = al := Nat.max_eq_right (Nat.le_of_lt hlt)
  have hw : totalWidth (padTo v.align) xs = 0 := by omega
  have hw' : totalWidth (padTo al) xs = 0 := totalWidth_zero h.le_w (padTo_zero al) hw
  have hab : v.align ∣ al := h.al.dvd_of_le hal (Nat.le_of_lt hlt)
  unfold tryReserveAdditionalRepaired
  rw [Exec.get_bind, Exec.orUb_bind (alignedByteLen_eq h)]
  simp only [hm]
  rw [if_pos hlt, Exec.debugAssert_bind (Nat.le_max_left _ _)]
  have hlen : v.lenAfterRealignUp c al = some (some 0) := by
    have := lenAfterRealignUpGo_eq (T := T) h.al hal hab xs 0 0 (by simp) (by simp)
    unfold lenAfterRealignUp
    rw [h.infos]
    simpa [hw'] using this
  rw [Exec.orUb_bind hlen]
  dsimp only
  rw [Exec.orUb_bind (VSU.uncheckedSub_eq (by omega) (by omega))]
  unfold reserveCommitRepaired
  rw [Exec.get_bind]
  dsimp only
  have hz : padTo al (padTo al (v.byteCap + (0 - totalWidth (padTo v.align) xs)) + 0) = 0 := by rw [h0, hw]; simp
  rw [Exec.orUb_bind (checkedAddPad2 hal), hz, if_pos (Nat.zero_le _)]
  dsimp only
  rw [if_pos (.inl hlt), if_neg (by omega), Exec.modify_bind]
  rfl

omit [Inhabited β] in
theorem infosFrom_zero {w w' : Nat → Nat} (hw : ∀ n, n ≤ w n) (h0 : w' 0 = 0) :
    ∀ {xs : List (Val T β)} (off : Nat), totalWidth w xs = 0 → infosFrom (R := T.Meta) id w off xs = infosFrom id w' off xs
  | [], _, _ => rfl
  | x :: xs, off, h => by
    rw [totalWidth_cons] at h
    have h1 := hw x.size
    have h2 : x.size = 0 := by omega
    have h3 : w x.size = 0 := by omega
    have h4 : w' x.size = 0 := by rw [h2, h0]
    unfold infosFrom
    rw [h3, h4, infosFrom_zero hw h0 _ (by omega)]

omit [Inhabited β] in
theorem memAt_zero {mem : Nat → β} {w w' : Nat → Nat} (hw : ∀ n, n ≤ w n) (h0 : w' 0 = 0) :
    ∀ {xs : List (Val T β)} (off : Nat), totalWidth w xs = 0 → MemAt mem w off xs → MemAt mem w' off xs
  | [], _, _, _ => trivial
  | x :: xs, off, h, hm => by
    rw [totalWidth_cons] at h
    have h1 := hw x.size
    have h2 : x.size = 0 := by omega
    have h3 : w x.size = 0 := by omega
    have h4 : w' x.size = 0 := by rw [h2, h0]
    refine ⟨hm.1, ?_⟩
    have := hm.2
    rw [h3] at this
    rw [h4]
    exact memAt_zero hw h0 _ (by omega) this

/-- The vector may have the larger alignment. -/
theorem raised_holds (h : v.Represents G c xs) {al : Nat} (hal : IsAlign c al) (h0 : v.byteCap = 0) (hlt : v.align < al) :
    ({ v with ptr := al, align := al } : UVec T β).Represents G c xs := by
  have hcap := h.cap
  have hw : totalWidth (padTo v.align) xs = 0 := by omega
  have hw' : totalWidth (padTo al) xs = 0 := totalWidth_zero h.le_w (padTo_zero al) hw
  have hab : v.align ∣ al := h.al.dvd_of_le hal (Nat.le_of_lt hlt)
  refine ⟨h.wf, hal, fun x hx => Nat.dvd_trans (h.elemAl x hx) hab, h.infos.trans (infosFrom_zero h.le_w (padTo_zero al) 0 hw), h.recs,
    by simp only; omega, fun _ => by simp only; rw [h0]; exact Nat.dvd_zero _, ?_, memAt_zero h.le_w (padTo_zero al) 0 hw h.mem, ?_, h.leaks⟩
  · simp only
    rw [h0]
    exact hal.room (Nat.dvd_zero _) (Nat.zero_le _)
  · have := h.block
    rw [h0] at this
    refine ⟨hal.pos, Nat.dvd_refl _, ?_⟩
    simp only [this.none_of_zero, h0]

/-- The changed reservation always raises the alignment. -/
theorem tryReserveAdditionalRepaired_spec (h : v.Represents G c xs) {env : Env (Val T β)} (hv : env.Valid) (he : G → env.Exact)
    {al : Nat} (hal : IsAlign c al) (add : Nat) :
    (∃ v', tryReserveAdditionalRepaired c env add al v = .ok (.ok ()) v' ∧ Reserved G c env v v' xs add al ∧
      (add = 0 → al ≤ v.align → v' = v) ∧ al ≤ v'.align) ∨
    (∃ e, tryReserveAdditionalRepaired c env add al v = .ok (.error e) v ∧ ReserveFailure c env v xs add al e ∧
      ¬ (add = 0 ∧ al ≤ v.align)) := by
  by_cases hne : v.align < al ∧ v.byteCap = 0 ∧ add = 0
  · obtain ⟨hlt, h0, rfl⟩ := hne
    have hcap := h.cap
    have hw : totalWidth (padTo v.align) xs = 0 := by omega
    have hw' : totalWidth (padTo al) xs = 0 := totalWidth_zero h.le_w (padTo_zero al) hw
    refine .inl ⟨_, tryReserveAdditionalRepaired_alignOnly h env hal h0 hlt,
      ⟨raised_holds h hal h0 hlt, by simp only; omega, Nat.le_refl _, .inl (by simp only; omega), rfl, rfl, fun _ => .inl rfl,
        fun h1 => by omega, .inr fun n hn => ?_⟩, fun _ h1 => by omega, Nat.le_refl _⟩
    simp only
    rw [show n = 0 by omega, padTo_zero]
    omega
  · rw [tryReserveAdditionalRepaired_eq h env hal hne]
    rcases tryReserveAdditionalBytesAlign_spec h hv he hal add with ⟨v', h1, h2, h3⟩ | h1
    · refine .inl ⟨v', h1, h2, h3, ?_⟩
      rcases h2.align with h4 | ⟨h4, h5⟩
      · omega
      · have := h2.spare
        have := h2.mono
        have := h.cap
        have h6 := h2.holds.cap
        by_cases h7 : v.align < al
        · exact absurd ⟨h7, by omega, by omega⟩ hne
        · omega
    · exact .inr h1

/-- The contract, with the changed reservation. -/
def implReserving (G : Prop) (c : Cfg) (T : UTy) : Impl c (unalignedReservingP (β := β) c T) :=
  { implRepaired (β := β) G c T with
    addBytes := fun {v xs} h {env} he {al} hal add => by
      rcases tryReserveAdditionalRepaired_spec h he.1 he.2 hal add with ⟨v', h1, h2, h3, h4⟩ | ⟨e, h1, h2, h3⟩
      · refine .inl ⟨v', h1, h2.holds, h2.drops, h2.spare, h2.mono, h2.elemsCap, h3, h2.tight, ?_, ?_, .inl h4,
          h2.whole.imp id (fun h4 n h5 => .inr (.inl (h4 n h5)))⟩
        · show v.align ≤ v'.align
          rcases h2.align with h4 | h4 <;> omega
        · exact h2.align.imp id And.right
      · exact .inr ⟨e, h1, h2, h3⟩
    noAdd := fun {v xs} h env {al} hal hf => by
      have h1 : tryReserveAdditionalRepaired c env 0 al v = _ :=
        tryReserveAdditionalRepaired_eq h env hal (fun h1 => absurd h1.1 (Nat.not_lt.2 hf))
      exact h1.trans (tryReserveAdditionalBytesAlign_idle h env hf) }

end UVec

section
variable {V : Type} {T : UTy} {β : Type} {c : Cfg}

theorem orUb_same {α : Type} {o : Option α} {a : α} {v v' : V} (h : Exec.orUb o v = .ok a v') : v' = v := by
  cases o <;> cases h
  rfl

theorem debugAssert_same {d : Bool} {p : Prop} [Decidable p] {u : Unit} {v v' : V} (h : Exec.debugAssert d p v = .ok u v') : v' = v := by
  unfold Exec.debugAssert at h
  split at h <;> cases h
  rfl

/-- The last thing that a reservation that succeeds does. -/
theorem reserved_last {P : Provider V T β} {env : Env (Val T β)} {n b al : Nat} {v v' : V}
    (h : Api.tryReserveCapacityBytesAlign c P env n b al v = .ok (.ok ()) v') {a : Nat} (ha : P.alignNew al = some a) :
    ∃ v1, P.tryReserve env n v = .ok (.ok ()) v1 ∧ ∃ add v2, (v2 = v1 ∨ ∃ k e, P.tryReserveAdditionalBytesAlign env k a v1 = .ok (.error e) v2) ∧
      P.tryReserveAdditionalBytesAlign env add a v2 = .ok (.ok ()) v' := by
  have last : ∀ {b needed : Nat} {w : V}, Api.reserveNeeded c P env b needed a w = .ok (.ok ()) v' →
      P.tryReserveAdditionalBytesAlign env needed a w = .ok (.ok ()) v' := by
    intro b needed w h
    unfold Api.reserveNeeded at h
    obtain ⟨r, w1, h1, h⟩ := Exec.bind_ok_inv h
    obtain ⟨_, w2, h2, h⟩ := Exec.bind_ok_inv h
    cases h
    have : w1 = v' := by
      unfold Api.byteCapAssert at h2
      rw [Exec.get_bind] at h2
      obtain ⟨_, w3, h3, h2⟩ := Exec.bind_ok_inv h2
      obtain ⟨_, w4, h4, h2⟩ := Exec.bind_ok_inv h2
      have e1 := orUb_same h3
      have e2 := orUb_same h4
      have e3 := debugAssert_same h2
      rw [e3, e2, e1]
    rw [← this]; exact h1
  unfold Api.tryReserveCapacityBytesAlign Api.tryReserve at h
  obtain ⟨r, v1, h1, h⟩ := Exec.bind_ok_inv h
  cases r with
  | error e => cases h
  | ok u =>
    dsimp only at h
    refine ⟨v1, h1, ?_⟩
    rw [Exec.get_bind] at h
    obtain ⟨_, w1, h2, g1⟩ := Exec.bind_ok_inv h
    rw [debugAssert_same h2] at g1
    unfold Api.toAlign at g1
    rw [ha] at g1
    dsimp only at g1
    rw [Exec.pure_bind_apply] at g1
    obtain ⟨bc, w3, h4, g2⟩ := Exec.bind_ok_inv g1
    rw [orUb_same h4] at g2
    obtain ⟨un, w4, h5, g3⟩ := Exec.bind_ok_inv g2
    rw [orUb_same h5] at g3
    by_cases hopt : (if b - un > 0 then max (b - un) bc else 0) > b - un
    · rw [if_pos hopt] at g3
      obtain ⟨r, w5, h6, g4⟩ := Exec.bind_ok_inv g3
      cases r with
      | ok u => cases g4; exact ⟨_, _, .inl rfl, h6⟩
      | error e => exact ⟨_, _, .inr ⟨_, _, h6⟩, last g4⟩
    · rw [if_neg hopt] at g3
      exact ⟨_, _, .inl rfl, last g3⟩

end

namespace UVec
variable {T : UTy} {β : Type} [Inhabited β] {c : Cfg} {G : Prop} {v : UVec T β} {xs : List (Val T β)}

theorem additional_fits (h : v.Represents G c xs) {env : Env (Val T β)} (hv : env.Valid) (he : G → env.Exact) {add al : Nat} (hal : IsAlign c al)
    {v' : UVec T β} (hr : tryReserveAdditionalRepaired c env add al v = .ok (.ok ()) v') : al ≤ v'.align := by
  rcases tryReserveAdditionalRepaired_spec h hv he hal add with ⟨v1, h1, _, _, h2⟩ | ⟨e, h1, _⟩
  · rw [h1] at hr; cases hr; exact h2
  · rw [h1] at hr; cases hr

/-- A reservation that succeeds has raised the alignment. -/
theorem reserving_fits (h : v.Represents G c xs) {env : Env (Val T β)} (hv : env.Valid) (he : G → env.Exact) {n b al : Nat} (hal : IsAlign c al)
    {v' : UVec T β} (hr : Api.tryReserveCapacityBytesAlign c (unalignedReservingP c T) env n b al v = .ok (.ok ()) v') : al ≤ v'.align := by
  obtain ⟨v1, h1, add, v2, h2, h3⟩ := reserved_last hr ((implReserving (β := β) G c T).alignNew hal)
  have h4 : v1.Represents G c xs := by
    rcases (implReserving G c T).tryReserve h env n with ⟨w, h4, h5, _⟩ | ⟨e, h4, _⟩
    · rw [h4] at h1; cases h1; exact h5
    · rw [h4] at h1; cases h1
  have h5 : v2 = v1 := by
    rcases h2 with h2 | ⟨k, e, h2⟩
    · exact h2
    · rcases tryReserveAdditionalRepaired_spec h4 hv he hal k with ⟨w, h5, _⟩ | ⟨e', h5, _⟩
      · have h2 : tryReserveAdditionalRepaired c env k al v1 = _ := h2
        rw [h5] at h2; cases h2
      · have h2 : tryReserveAdditionalRepaired c env k al v1 = _ := h2
        rw [h5] at h2; cases h2; rfl
  subst h5
  exact additional_fits h4 hv he hal h3

theorem reserving_exact_fits (h : v.Represents G c xs) {env : Env (Val T β)} (hv : env.Valid) (he : G → env.Exact) {n b al : Nat} (hal : IsAlign c al)
    {v' : UVec T β} (hr : Api.tryReserveExactCapacityBytesAlign (unalignedReservingP c T) env n b al v = .ok (.ok ()) v') : al ≤ v'.align := by
  unfold Api.tryReserveExactCapacityBytesAlign at hr
  rcases (implReserving G c T).tryReserve h env n with ⟨w, h4, h5, _⟩ | ⟨e, h4, _⟩
  · rw [Exec.bind_ok h4] at hr
    dsimp only at hr
    unfold Api.toAlign at hr
    rw [(implReserving (β := β) G c T).alignNew hal] at hr
    dsimp only at hr
    rw [Exec.pure_bind_apply] at hr
    exact additional_fits h5 hv he hal hr
  · rw [Exec.bind_ok h4] at hr; cases hr

theorem attempt_fits (h : v.Represents G c xs) {env : Env (Val T β)} (hv : env.Valid) (he : G → env.Exact) (q : Reservation)
    (hal : IsAlign c q.align) {v' : UVec T β} (h' : v'.Represents G c xs)
    (hr : q.attempt c (unalignedReservingP c T) env v = .ok (.ok ()) v') : q.align ≤ v'.align := by
  cases q with
  | elems n => exact h'.al.pos
  | exact n => exact h'.al.pos
  | capBytes n b => exact h'.al.pos
  | exactCapBytes n b => exact h'.al.pos
  | capBytesAlign n b al => exact reserving_fits h hv he hal hr
  | exactCapBytesAlign n b al => exact reserving_exact_fits h hv he hal hr

theorem served {m : Exec (UVec T β) (Except TRE Unit)} {v' : UVec T β} (h : (m >>= unwrapReserve) v = .ok () v') : m v = .ok (.ok ()) v' := by
  obtain ⟨r, v1, h1, h2⟩ := Exec.bind_ok_inv h
  cases r with
  | ok u => cases h2; exact h1
  | error e => cases e <;> cases h2

theorem run_fits (h : v.Represents G c xs) {env : Env (Val T β)} (hv : env.Valid) (he : G → env.Exact) (q : Reservation)
    (hal : IsAlign c q.align) {v' : UVec T β} (h' : v'.Represents G c xs)
    (hr : q.run c (unalignedReservingP c T) env v = .ok () v') : q.align ≤ v'.align := by
  cases q with
  | elems n => exact h'.al.pos
  | exact n => exact h'.al.pos
  | capBytes n b => exact h'.al.pos
  | exactCapBytes n b => exact h'.al.pos
  | capBytesAlign n b al => exact reserving_fits h hv he hal (served hr)
  | exactCapBytesAlign n b al => exact reserving_exact_fits h hv he hal (served hr)

end UVec

theorem Res.Meets.withEq {σ α : Type} {r : Res σ α} {P : α → σ → Prop} {Q : σ → Prop} {R : Prop} (h : r.Meets P Q R) :
    r.Meets (fun a s => P a s ∧ r = .ok a s) Q R := by
  cases r with
  | ok a s => exact ⟨h, rfl⟩
  | panic s => exact h
  | abort => exact h
  | ub => exact h

end Verif
