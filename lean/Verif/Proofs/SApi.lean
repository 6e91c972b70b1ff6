import Verif.Proofs.SOps
import Verif.Spec.Reserve
import Verif.Spec.Shrink
import Verif.Spec.Samples

/-!
# Vectors of sized elements: the public interface
-/

namespace Verif
namespace SVec
variable {sz al : Nat} {β : Type} [Inhabited β] {c : Cfg} {v : SVec sz al β} {xs : List (Val (sizedTy sz al) β)}

set_option linter.unusedSectionVars false

/-! ## reservations -/

theorem Holds.free_eq (h : v.Holds c xs) : v.free c = v.capacity c - xs.length := by unfold free; rw [h.len]

theorem extra_idle (hz : 0 < sz) {b : Nat} (hb : b ≤ v.free c * sz) : v.extra c b ≤ v.free c := by
  have h1 : saturatingAdd c b (v.free c) ≤ b + v.free c := Nat.min_le_left _ _
  unfold extra
  have : (saturatingAdd c b (v.free c) + sz - 1) / sz ≤ v.free c + v.free c := by
    rw [Nat.div_le_iff_le_mul_add_pred hz, Nat.mul_add]
    have h2 := Nat.le_mul_of_pos_left (v.free c) hz
    rw [Nat.mul_comm] at hb
    omega
  omega

theorem addBytes_idle (h : v.Holds c xs) (hz : 0 < sz) (env : Env (Val (sizedTy sz al) β)) {b : Nat} (hb : b ≤ v.free c * sz) :
    tryReserveAdditionalBytes c env b v = .ok (.ok ()) v := by
  have h1 := extra_idle hz hb
  have h2 := h.free_eq
  have h3 := h.cap
  rw [tryReserveAdditionalBytes_eq h hz]
  rcases tryReserve_cases h env (v.extra c b) with ⟨v', h1, hg⟩ | ⟨e, _, _, h2⟩
  · rw [h1, hg.idle (by omega)]
  · omega

theorem addBytes_cases (h : v.Holds c xs) (hz : 0 < sz) (env : Env (Val (sizedTy sz al) β)) (b : Nat) :
    (∃ v', tryReserveAdditionalBytes c env b v = .ok (.ok ()) v' ∧ v'.Holds c xs ∧ v'.drops = v.drops ∧ v.capacity c ≤ v'.capacity c ∧
      (v.free c = 0 → b ≤ c.usizeMax → xs.length * sz + b ≤ v'.capacity c * sz)) ∨
    (∃ e, tryReserveAdditionalBytes c env b v = .ok (.error e) v ∧ ∃ n, Fails c sz env xs.length n e) := by
  rw [tryReserveAdditionalBytes_eq h hz]
  rcases tryReserve_cases h env (v.extra c b) with ⟨v', h1, hg⟩ | ⟨e, h1, hf, _⟩
  · refine .inl ⟨v', h1, hg.holds, hg.drops, hg.mono, ?_⟩
    intro hf hb
    have h2 := hg.room
    have h3 : b ≤ v.extra c b * sz := by
      unfold extra saturatingAdd
      rw [hf, Nat.add_zero, Nat.min_eq_left hb, Nat.sub_zero]
      have := Nat.div_add_mod (b + sz - 1) sz
      have := Nat.mod_lt (b + sz - 1) hz
      rw [Nat.mul_comm]
      omega
    calc xs.length * sz + b ≤ xs.length * sz + v.extra c b * sz := by omega
      _ = (xs.length + v.extra c b) * sz := (Nat.add_mul _ _ _).symm
      _ ≤ _ := Nat.mul_le_mul_right _ h2
  · exact .inr ⟨e, h1, _, hf⟩

/-- The effect of a successful reservation. -/
structure Served (c : Cfg) (v v' : SVec sz al β) (xs : List (Val (sizedTy sz al) β)) (n b : Nat) : Prop where
  holds : v'.Holds c xs
  drops : v'.drops = v.drops
  room : xs.length + n ≤ v'.capacity c
  mono : v.capacity c ≤ v'.capacity c
  bytes : v.BytesOk c n b → b ≤ c.usizeMax → xs.length * sz + b ≤ v'.capacity c * sz
  idle : xs.length + n ≤ v.capacity c → b ≤ v.free c * sz → v' = v

/-- The effect of a failed reservation. -/
structure Kept (c : Cfg) (env : Env (Val (sizedTy sz al) β)) (v v' : SVec sz al β) (xs : List (Val (sizedTy sz al) β)) (n : Nat) :
    Prop where
  holds : v'.Holds c xs
  drops : v'.drops = v.drops
  mono : v.capacity c ≤ v'.capacity c
  same : xs.length + n ≤ v.capacity c → v' = v
  raised : (∀ e, ¬ Fails c sz env xs.length n e) → xs.length + n ≤ v'.capacity c

/-- The outcome of a `try_` method. -/
def Tried (c : Cfg) (env : Env (Val (sizedTy sz al) β)) (v : SVec sz al β) (xs : List (Val (sizedTy sz al) β)) (n b : Nat)
    (r : Except TRE Unit) (v' : SVec sz al β) : Prop :=
  (r = .ok () ∧ Served c v v' xs n b) ∨
    ∃ e, r = .error e ∧ Kept c env v v' xs n ∧ (∃ m, Fails c sz env xs.length m e) ∧
      ¬ (xs.length + n ≤ v.capacity c ∧ b ≤ v.free c * sz) ∧ (b ≤ n * sz → v' = v ∧ Fails c sz env xs.length n e)

theorem elems_tried (h : v.Holds c xs) (env : Env (Val (sizedTy sz al) β)) (n : Nat) :
    (tryReserve c env n v).Meets (Tried c env v xs n 0) (fun _ => False) False := by
  rcases tryReserve_cases h env n with ⟨v', h1, hg⟩ | ⟨e, h1, hf, hlt⟩
  · refine .of_ok h1 (.inl ⟨rfl, hg.holds, hg.drops, hg.room, hg.mono, fun _ _ => Nat.mul_le_mul_right _ hg.holds.cap, fun h2 _ => hg.idle h2⟩)
  · exact .of_ok h1 (.inr ⟨e, rfl, ⟨h, rfl, Nat.le_refl _, fun _ => rfl, fun hn => absurd hf (hn e)⟩, ⟨_, hf⟩, by omega, fun _ => ⟨rfl, hf⟩⟩)

theorem exact_tried (h : v.Holds c xs) (hz : 0 < sz) (env : Env (Val (sizedTy sz al) β)) (n b a : Nat) :
    (Api.tryReserveExactCapacityBytesAlign (sizedP c sz al) env n b a v).Meets (Tried c env v xs n b) (fun _ => False) False := by
  unfold Api.tryReserveExactCapacityBytesAlign
  show (((tryReserve c env n) >>= _ : Exec _ _) v).Meets _ _ _
  rcases tryReserve_cases h env n with ⟨v1, h1, hg⟩ | ⟨e, h1, hf, hlt⟩
  rotate_left
  · rw [Exec.bind_ok h1]
    exact .inr ⟨e, rfl, ⟨h, rfl, Nat.le_refl _, fun _ => rfl, fun hn => absurd hf (hn e)⟩, ⟨_, hf⟩, by omega, fun _ => ⟨rfl, hf⟩⟩
  rw [Exec.bind_ok h1]
  show (tryReserveAdditionalBytes c env b v1).Meets _ _ _
  have hf1 := hg.holds.free_eq
  have hfv := h.free_eq
  have hroom := hg.room
  have hmono := hg.mono
  have hidle : xs.length + n ≤ v.capacity c → b ≤ v.free c * sz → tryReserveAdditionalBytes c env b v1 = .ok (.ok ()) v := by
    intro h4 h5
    rw [hg.idle h4]
    exact addBytes_idle h hz env h5
  have hby : ∀ v2 : SVec sz al β, v1.capacity c ≤ v2.capacity c → b ≤ max n (v.free c) * sz → xs.length * sz + b ≤ v2.capacity c * sz := by
    intro v2 h2 hb
    have h3 : xs.length + max n (v.free c) ≤ v2.capacity c := by have := h.cap; omega
    have := Nat.mul_le_mul_right sz h3
    rw [Nat.add_mul] at this
    omega
  rcases addBytes_cases hg.holds hz env b with ⟨v2, h2, hH, hd, hm, hb⟩ | ⟨e, h2, hf⟩
  · refine .of_ok h2 (.inl ⟨rfl, hH, by rw [hd, hg.drops], by omega, by omega, ?_, ?_⟩)
    · rintro (h3 | ⟨h3, h4⟩) h5
      · exact hby v2 hm h3
      · have := hg.idle (by have := h.cap; omega)
        rw [this] at hb
        exact hb h4 h5
    · intro h4 h5
      rw [hidle h4 h5] at h2
      cases h2; rfl
  · refine .of_ok h2 (.inr ⟨e, rfl, ⟨hg.holds, hg.drops, hg.mono, hg.idle, fun _ => hg.room⟩, hf, ?_, ?_⟩)
    · rintro ⟨h4, h5⟩
      rw [hidle h4 h5] at h2
      cases h2
    · intro h3
      rw [addBytes_idle hg.holds hz env (Nat.le_trans h3 (Nat.mul_le_mul_right _ (by omega)))] at h2
      cases h2

theorem byteCapAssert_cases (h : v.Holds c xs) (b : Nat) :
    (Api.byteCapAssert c (sizedP c sz al) b v = .ok () v) ∨
      (Api.byteCapAssert c (sizedP c sz al) b v = .panic v ∧ c.debug = true ∧ ¬ xs.length * sz + b ≤ v.capacity c * sz) := by
  unfold Api.byteCapAssert
  rw [Exec.get_bind, Exec.orUb_bind (show (sizedP c sz al).byteCapacity v = _ from byteCapacity_eq h),
    Exec.orUb_bind (show (sizedP c sz al).byteLen v = _ from byteLen_eq h)]
  rcases Exec.debugAssert_cases c.debug (v.capacity c * sz ≥ xs.length * sz + b) v with h1 | h1
  · exact .inl h1
  · exact .inr ⟨h1.1, h1.2.1, h1.2.2⟩

theorem capBytes_tried (h : v.Holds c xs) (hz : 0 < sz) (env : Env (Val (sizedTy sz al) β)) (n b a : Nat) :
    (Api.tryReserveCapacityBytesAlign c (sizedP c sz al) env n b a v).Meets (Tried c env v xs n b)
      (fun v' => c.debug = true ∧ v'.Holds c xs ∧ v'.drops = v.drops ∧ v.capacity c ≤ v'.capacity c ∧
        (v.BytesOk c n b → b ≤ c.usizeMax → ∃ e m, Fails c sz env xs.length m e) ∧
        ¬ (xs.length + n ≤ v.capacity c ∧ b ≤ v.free c * sz) ∧ ¬ b ≤ n * sz) False := by
  unfold Api.tryReserveCapacityBytesAlign Api.tryReserve
  show (((tryReserve c env n) >>= _ : Exec _ _) v).Meets _ _ _
  rcases tryReserve_cases h env n with ⟨v1, h1, hg⟩ | ⟨e, h1, hf, hlt⟩
  rotate_left
  · rw [Exec.bind_ok h1]
    exact .inr ⟨e, rfl, ⟨h, rfl, Nat.le_refl _, fun _ => rfl, fun hn => absurd hf (hn e)⟩, ⟨_, hf⟩, by omega, fun _ => ⟨rfl, hf⟩⟩
  rw [Exec.bind_ok h1]
  dsimp only
  have hH1 := hg.holds
  have hf1 := hH1.free_eq
  have hfv := h.free_eq
  have hroom := hg.room
  have hmono := hg.mono
  have hcap1 := hH1.cap
  have hcapv := h.cap
  rw [Exec.get_bind, Exec.debugAssert_bind (by show _ ≥ v1.len + n; rw [hH1.len]; exact hroom)]
  unfold Api.toAlign
  show ((Exec.orUb ((sizedP c sz al).byteCapacity v1) >>= _ : Exec _ _) v1).Meets _ _ _
  rw [Exec.orUb_bind (show (sizedP c sz al).byteCapacity v1 = _ from byteCapacity_eq hH1)]
  have hmul : v1.capacity c * sz - xs.length * sz = v1.free c * sz := by rw [hf1, Nat.sub_mul]
  have hun : Api.unusedByteCap (sizedP c sz al) v1 = some (v1.free c * sz) := by
    unfold Api.unusedByteCap uncheckedSub
    rw [show (sizedP c sz al).byteCapacity v1 = _ from byteCapacity_eq hH1, show (sizedP c sz al).byteLen v1 = _ from byteLen_eq hH1]
    simp only [Option.bind_eq_bind, Option.bind_some, if_pos (Nat.mul_le_mul_right sz hcap1), hmul]
  rw [Exec.orUb_bind hun]
  generalize hneed : b - v1.free c * sz = needed
  have hmulv : v1.capacity c * sz = xs.length * sz + v1.free c * sz := by
    rw [← Nat.add_mul]; congr 1; omega
  -- with enough spare bytes already, nothing is needed
  have hnz : 0 < needed → v.BytesOk c n b → n = 0 ∧ v.free c = 0 ∧ v1 = v := by
    rintro h2 (h3 | ⟨h3, h4⟩)
    · have : max n (v.free c) ≤ v1.free c := by omega
      have := Nat.mul_le_mul_right sz this
      omega
    · exact ⟨h3, h4, hg.idle (by omega)⟩
  have hnot2 : 0 < needed → ¬ b ≤ n * sz := by
    intro h2 h3
    have : n * sz ≤ v1.free c * sz := Nat.mul_le_mul_right _ (by omega)
    omega
  have hnot : 0 < needed → ¬ (xs.length + n ≤ v.capacity c ∧ b ≤ v.free c * sz) := by
    rintro h2 ⟨h3, h4⟩
    rw [hg.idle h3] at hneed
    omega
  have hsucc : ∀ {v2 : SVec sz al β} {add : Nat}, needed ≤ add → v2.Holds c xs → v2.drops = v1.drops → v1.capacity c ≤ v2.capacity c →
      (v1.free c = 0 → add ≤ c.usizeMax → xs.length * sz + add ≤ v2.capacity c * sz) → (b ≤ c.usizeMax → add ≤ c.usizeMax) →
      (needed = 0 → v2 = v1) → Served c v v2 xs n b := by
    intro v2 add h2 h3 h4 h5 h6 h7 h8
    refine ⟨h3, by rw [h4, hg.drops], by omega, by omega, ?_, ?_⟩
    · intro h9 h10
      rcases Nat.eq_zero_or_pos needed with h11 | h11
      · rw [h8 h11]; omega
      · obtain ⟨h12, h13, h14⟩ := hnz h11 h9
        have := h6 (by rw [h14]; exact h13) (h7 h10)
        rw [h14, h13, Nat.zero_mul] at hneed
        omega
    · intro h9 h10
      have h11 := hg.idle h9
      rw [h8 (by rw [h11] at hneed; omega), h11]
  have hreserve : (Api.reserveNeeded c (sizedP c sz al) env b needed a v1).Meets (Tried c env v xs n b)
      (fun v' => c.debug = true ∧ v'.Holds c xs ∧ v'.drops = v.drops ∧ v.capacity c ≤ v'.capacity c ∧
        (v.BytesOk c n b → b ≤ c.usizeMax → ∃ e m, Fails c sz env xs.length m e) ∧
        ¬ (xs.length + n ≤ v.capacity c ∧ b ≤ v.free c * sz) ∧ ¬ b ≤ n * sz) False := by
    unfold Api.reserveNeeded
    show (((tryReserveAdditionalBytes c env needed) >>= _ : Exec _ _) v1).Meets _ _ _
    rcases Nat.eq_zero_or_pos needed with h0 | h0
    · rw [h0]
      rw [Exec.bind_ok (noAdd hH1 hz env)]
      have hS : Served c v v1 xs n b := hsucc (add := needed) (Nat.le_refl _) hH1 rfl (Nat.le_refl _) (fun h8 _ => by rw [h0]; omega)
        (fun _ => by omega) (fun _ => rfl)
      rcases byteCapAssert_cases hH1 b with h3 | ⟨_, _, h3⟩
      · rw [Exec.bind_ok h3]
        exact .inl ⟨rfl, hS⟩
      · exact absurd (by omega) h3
    rcases addBytes_cases hH1 hz env needed with ⟨v2, h2, hH, hd, hm, hb⟩ | ⟨e, h2, hf⟩
    · have hS := hsucc (Nat.le_refl _) hH hd hm hb (fun _ => by omega) (fun h => by omega)
      rw [Exec.bind_ok h2]
      rcases byteCapAssert_cases hH b with h3 | ⟨h3, h4, h5⟩
      · rw [Exec.bind_ok h3]
        exact .inl ⟨rfl, hS⟩
      · rw [Exec.bind_panic h3]
        exact ⟨h4, hH, hS.drops, hS.mono, fun h6 h7 => absurd (hS.bytes h6 h7) h5, hnot h0, hnot2 h0⟩
    · rw [Exec.bind_ok h2]
      rcases byteCapAssert_cases hH1 b with h3 | ⟨h3, h4, h5⟩
      · rw [Exec.bind_ok h3]
        exact .inr ⟨e, rfl, ⟨hH1, hg.drops, hg.mono, hg.idle, fun _ => hg.room⟩, hf, hnot h0, fun h => absurd h (hnot2 h0)⟩
      · rw [Exec.bind_panic h3]
        exact ⟨h4, hH1, hg.drops, hg.mono, fun _ _ => ⟨e, hf⟩, hnot h0, hnot2 h0⟩
  rcases Nat.eq_zero_or_pos needed with h0 | h0
  · rw [if_neg (show ¬ needed > 0 by omega), if_neg (show ¬ 0 > needed by omega)]
    exact hreserve
  rw [if_pos h0]
  by_cases hopt : max needed (v1.capacity c * sz) > needed
  · rw [if_pos hopt]
    show (((tryReserveAdditionalBytes c env _) >>= _ : Exec _ _) v1).Meets _ _ _
    rcases addBytes_cases hH1 hz env (max needed (v1.capacity c * sz)) with ⟨v2, h2, hH, hd, hm, hb⟩ | ⟨e, h2, hf⟩
    · rw [Exec.bind_ok h2]
      have h6 := hH1.capMax
      have h7 := c.isizeMax_le_usizeMax
      exact .inl ⟨rfl, hsucc (Nat.le_max_left _ _) hH hd hm hb (fun _ => by omega) (fun h => by omega)⟩
    · rw [Exec.bind_ok h2]
      exact hreserve
  · rw [if_neg hopt]
    exact hreserve

/-- Every `try_` method. -/
theorem attempt_any (h : v.Holds c xs) (env : Env (Val (sizedTy sz al) β)) (q : Reservation)
    (hz : 0 < sz ∨ ∃ n, q = .elems n ∨ q = .exact n) :
    (q.attempt c (sizedP c sz al) env v).Meets (Tried c env v xs q.slots q.bytes)
      (fun v' => (c.debug = true ∧ q.Asserts) ∧ v'.Holds c xs ∧ v'.drops = v.drops ∧ v.capacity c ≤ v'.capacity c ∧
        (v.BytesOk c q.slots q.bytes → q.bytes ≤ c.usizeMax → ∃ e m, Fails c sz env xs.length m e) ∧
        ¬ (xs.length + q.slots ≤ v.capacity c ∧ q.bytes ≤ v.free c * sz) ∧ ¬ q.bytes ≤ q.slots * sz) False := by
  cases q with
  | elems n => exact (elems_tried h env n).mono (fun _ _ h => h) (fun _ h => h.elim) id
  | capBytes n b =>
    have hz : 0 < sz := by rcases hz with hz | ⟨m, hz | hz⟩ <;> first | exact hz | cases hz
    exact (capBytes_tried h hz env n b 1).mono (fun _ _ h => h) (fun _ h => ⟨⟨h.1, trivial⟩, h.2⟩) id
  | capBytesAlign n b al =>
    have hz : 0 < sz := by rcases hz with hz | ⟨m, hz | hz⟩ <;> first | exact hz | cases hz
    exact (capBytes_tried h hz env n b al).mono (fun _ _ h => h) (fun _ h => ⟨⟨h.1, trivial⟩, h.2⟩) id
  | exact n => exact (elems_tried h env n).mono (fun _ _ h => h) (fun _ h => h.elim) id
  | exactCapBytes n b =>
    have hz : 0 < sz := by rcases hz with hz | ⟨m, hz | hz⟩ <;> first | exact hz | cases hz
    exact (exact_tried h hz env n b 1).mono (fun _ _ h => h) (fun _ h => h.elim) id
  | exactCapBytesAlign n b al =>
    have hz : 0 < sz := by rcases hz with hz | ⟨m, hz | hz⟩ <;> first | exact hz | cases hz
    exact (exact_tried h hz env n b al).mono (fun _ _ h => h) (fun _ h => h.elim) id

theorem attempt_meets (h : v.Holds c xs) (hz : 0 < sz) (env : Env (Val (sizedTy sz al) β)) (q : Reservation) :
    (q.attempt c (sizedP c sz al) env v).Meets (Tried c env v xs q.slots q.bytes)
      (fun v' => (c.debug = true ∧ q.Asserts) ∧ v'.Holds c xs ∧ v'.drops = v.drops ∧ v.capacity c ≤ v'.capacity c ∧
        (v.BytesOk c q.slots q.bytes → q.bytes ≤ c.usizeMax → ∃ e m, Fails c sz env xs.length m e) ∧
        ¬ (xs.length + q.slots ≤ v.capacity c ∧ q.bytes ≤ v.free c * sz) ∧ ¬ q.bytes ≤ q.slots * sz) False :=
  attempt_any h env q (.inl hz)

/-- Reserving without `try_`: the error is turned into a panic or an abort. -/
theorem run_any (h : v.Holds c xs) (env : Env (Val (sizedTy sz al) β)) (q : Reservation) (hz : 0 < sz ∨ ∃ n, q = .elems n) :
    (q.run c (sizedP c sz al) env v).Meets (fun _ v' => Served c v v' xs q.slots q.bytes)
      (fun v' => v'.Holds c xs ∧ v'.drops = v.drops ∧ v.capacity c ≤ v'.capacity c ∧
        ((c.debug = true ∧ q.Asserts ∧ ¬ v.BytesOk c q.slots q.bytes) ∨ c.usizeMax < q.bytes ∨ ∃ e m, Fails c sz env xs.length m e) ∧
        ¬ (xs.length + q.slots ≤ v.capacity c ∧ q.bytes ≤ v.free c * sz) ∧
        (q.bytes ≤ q.slots * sz → v' = v ∧ ∃ e, Fails c sz env xs.length q.slots e))
      ((∃ e m, Fails c sz env xs.length m e) ∧ ¬ (xs.length + q.slots ≤ v.capacity c ∧ q.bytes ≤ v.free c * sz) ∧
        (q.bytes ≤ q.slots * sz → ∃ e, Fails c sz env xs.length q.slots e)) := by
  have hrun : ∀ (m : Exec (SVec sz al β) (Except TRE Unit)) {D : Prop},
      (m v).Meets (Tried c env v xs q.slots q.bytes) (fun v' => D ∧ v'.Holds c xs ∧ v'.drops = v.drops ∧ v.capacity c ≤ v'.capacity c ∧
        (v.BytesOk c q.slots q.bytes → q.bytes ≤ c.usizeMax → ∃ e m, Fails c sz env xs.length m e) ∧
        ¬ (xs.length + q.slots ≤ v.capacity c ∧ q.bytes ≤ v.free c * sz) ∧ ¬ q.bytes ≤ q.slots * sz) False →
      (D → c.debug = true ∧ q.Asserts) →
      ((do let r ← m; unwrapReserve r : Exec (SVec sz al β) Unit) v).Meets (fun _ v' => Served c v v' xs q.slots q.bytes)
      (fun v' => v'.Holds c xs ∧ v'.drops = v.drops ∧ v.capacity c ≤ v'.capacity c ∧
        ((c.debug = true ∧ q.Asserts ∧ ¬ v.BytesOk c q.slots q.bytes) ∨ c.usizeMax < q.bytes ∨ ∃ e m, Fails c sz env xs.length m e) ∧
        ¬ (xs.length + q.slots ≤ v.capacity c ∧ q.bytes ≤ v.free c * sz) ∧
        (q.bytes ≤ q.slots * sz → v' = v ∧ ∃ e, Fails c sz env xs.length q.slots e))
      ((∃ e m, Fails c sz env xs.length m e) ∧ ¬ (xs.length + q.slots ≤ v.capacity c ∧ q.bytes ≤ v.free c * sz) ∧
        (q.bytes ≤ q.slots * sz → ∃ e, Fails c sz env xs.length q.slots e)) := by
    intro m D hm hD
    cases hmv : m v with
    | ub => rw [hmv] at hm; exact hm.elim
    | abort => rw [hmv] at hm; exact hm.elim
    | panic v' =>
      rw [hmv] at hm
      rw [Exec.bind_panic hmv]
      obtain ⟨h1, h2, h3, h4, h5, h6, h7⟩ := hm
      refine ⟨h2, h3, h4, ?_, h6, fun h => absurd h h7⟩
      by_cases h8 : v.BytesOk c q.slots q.bytes
      · by_cases h9 : q.bytes ≤ c.usizeMax
        · exact .inr (.inr (h5 h8 h9))
        · exact .inr (.inl (by omega))
      · exact .inl ⟨(hD h1).1, (hD h1).2, h8⟩
    | ok r v' =>
      rw [hmv] at hm
      rw [Exec.bind_ok hmv]
      rcases hm with ⟨rfl, h1⟩ | ⟨e, rfl, hk, hf, hn, hf2⟩
      · exact h1
      · cases e
        · exact ⟨hk.holds, hk.drops, hk.mono, .inr (.inr ⟨_, hf⟩), hn, fun h => ⟨(hf2 h).1, _, (hf2 h).2⟩⟩
        · exact ⟨⟨_, hf⟩, hn, fun h => ⟨_, (hf2 h).2⟩⟩
  cases q with
  | elems n => exact hrun _ (attempt_any h env (.elems n) (.inr ⟨n, .inl rfl⟩)) id
  | capBytes n b =>
    have hz : 0 < sz := by rcases hz with hz | ⟨m, hz⟩ <;> first | exact hz | cases hz
    exact hrun _ (attempt_meets h hz env (.capBytes n b)) id
  | capBytesAlign n b al =>
    have hz : 0 < sz := by rcases hz with hz | ⟨m, hz⟩ <;> first | exact hz | cases hz
    exact hrun _ (attempt_meets h hz env (.capBytesAlign n b al)) id
  | exact n =>
    have hz : 0 < sz := by rcases hz with hz | ⟨m, hz⟩ <;> first | exact hz | cases hz
    exact hrun _ ((attempt_meets h hz env (.exactCapBytes n 0)).mono (fun _ _ h => h) (fun _ h => h) id) (fun h => h.2.elim)
  | exactCapBytes n b =>
    have hz : 0 < sz := by rcases hz with hz | ⟨m, hz⟩ <;> first | exact hz | cases hz
    exact hrun _ (attempt_meets h hz env (.exactCapBytes n b)) id
  | exactCapBytesAlign n b al =>
    have hz : 0 < sz := by rcases hz with hz | ⟨m, hz⟩ <;> first | exact hz | cases hz
    exact hrun _ (attempt_meets h hz env (.exactCapBytesAlign n b al)) id

theorem run_meets (h : v.Holds c xs) (hz : 0 < sz) (env : Env (Val (sizedTy sz al) β)) (q : Reservation) :
    (q.run c (sizedP c sz al) env v).Meets (fun _ v' => Served c v v' xs q.slots q.bytes)
      (fun v' => v'.Holds c xs ∧ v'.drops = v.drops ∧ v.capacity c ≤ v'.capacity c ∧
        ((c.debug = true ∧ q.Asserts ∧ ¬ v.BytesOk c q.slots q.bytes) ∨ c.usizeMax < q.bytes ∨ ∃ e m, Fails c sz env xs.length m e) ∧
        ¬ (xs.length + q.slots ≤ v.capacity c ∧ q.bytes ≤ v.free c * sz) ∧
        (q.bytes ≤ q.slots * sz → v' = v ∧ ∃ e, Fails c sz env xs.length q.slots e))
      ((∃ e m, Fails c sz env xs.length m e) ∧ ¬ (xs.length + q.slots ≤ v.capacity c ∧ q.bytes ≤ v.free c * sz) ∧
        (q.bytes ≤ q.slots * sz → ∃ e, Fails c sz env xs.length q.slots e)) :=
  run_any h env q (.inl hz)

/-! ## push and insert -/

theorem reserveFor_meets (h : v.Holds c xs) (hz : 0 < sz) (env : Env (Val (sizedTy sz al) β)) (x : Val (sizedTy sz al) β) :
    (Api.reserveCapacityBytesAlign c (sizedP c sz al) env 1 x.size x.align v).Meets (fun _ v' => Grown c v v' xs 1)
      (fun v' => v' = v ∧ v.NoSlot c env) (v.NoSlot c env) := by
  have hfree := h.free_eq
  have hcap := h.cap
  have hfull : ¬ (xs.length + 1 ≤ v.capacity c ∧ sz ≤ v.free c * sz) → v.capacity c = xs.length := by
    intro h1
    by_cases h2 : xs.length + 1 ≤ v.capacity c
    · exact absurd ⟨h2, Nat.le_mul_of_pos_left sz (by omega)⟩ h1
    · omega
  refine (run_meets h hz env (.capBytesAlign 1 sz al)).mono (fun _ v' hs => ⟨hs.holds, hs.drops, hs.room, hs.mono, ?_⟩) ?_ ?_
  · intro h1
    exact hs.idle h1 (Nat.le_mul_of_pos_left sz (by omega))
  · rintro v' ⟨_, _, _, _, h1, h2⟩
    obtain ⟨h3, h4⟩ := h2 (Nat.le_of_eq (Nat.one_mul _).symm)
    exact ⟨h3, by unfold NoSlot; rw [h.len]; exact ⟨hfull h1, h4⟩⟩
  · rintro ⟨_, h1, h2⟩
    unfold NoSlot
    rw [h.len]
    exact ⟨hfull h1, h2 (Nat.le_of_eq (Nat.one_mul _).symm)⟩

theorem push_meets (h : v.Holds c xs) (hz : 0 < sz) (env : Env (Val (sizedTy sz al) β)) {x : Val (sizedTy sz al) β} (hx : x.WF c) :
    (Api.push c (sizedP c sz al) env x v).Meets
      (fun _ v' => v'.Holds c (xs ++ [x]) ∧ v'.drops = v.drops ∧ (xs.length < v.capacity c → v'.slots = v.slots ∧ v'.allocs = v.allocs))
      (fun v' => v' = v ∧ v.NoSlot c env) (v.NoSlot c env) := by
  unfold Api.push
  refine (reserveFor_meets h hz env x).bind ?_
  intro _ v1 hg
  obtain ⟨v2, h1, h2, h3, h4, h5⟩ := pushUnchecked_eq hg.holds hx hg.room
  exact .of_ok h1 ⟨h2, by rw [h3, hg.drops], fun h6 => by rw [h4, h5, hg.idle h6]; exact ⟨rfl, rfl⟩⟩

theorem insert_meets (h : v.Holds c xs) (hz : 0 < sz) (env : Env (Val (sizedTy sz al) β)) {x : Val (sizedTy sz al) β} (hx : x.WF c) {k : Nat}
    (hk : k ≤ xs.length) :
    (Api.insert c (sizedP c sz al) env k x v).Meets
      (fun _ v' => v'.Holds c (xs.take k ++ x :: xs.drop k) ∧ v'.drops = v.drops ∧
        (xs.length < v.capacity c → v'.slots = v.slots ∧ v'.allocs = v.allocs))
      (fun v' => v' = v ∧ v.NoSlot c env) (v.NoSlot c env) := by
  unfold Api.insert
  rw [Exec.get_bind, Exec.assert_bind (by show k ≤ v.len; rw [h.len]; exact hk)]
  refine (reserveFor_meets h hz env x).bind ?_
  intro _ v1 hg
  obtain ⟨v2, h1, h2, h3, h4, h5⟩ := insertUnchecked_eq hg.holds hx hg.room hk
  exact .of_ok h1 ⟨h2, by rw [h3, hg.drops], fun h6 => by rw [h4, h5, hg.idle h6]; exact ⟨rfl, rfl⟩⟩

theorem insert_out (h : v.Holds c xs) (env : Env (Val (sizedTy sz al) β)) (x : Val (sizedTy sz al) β) {k : Nat} (hk : xs.length < k) :
    Api.insert c (sizedP c sz al) env k x v = .panic v := by
  unfold Api.insert
  rw [Exec.get_bind]
  exact Exec.assert_bind_neg (p := k ≤ v.len) (by rw [h.len]; omega) _ _

/-! ## removal -/

theorem popInto_run {x : Val (sizedTy sz al) β} (h : v.Holds c (xs ++ [x])) (env : Env (Val (sizedTy sz al) β)) {τ : Type}
    (m : Emplacer τ (sizedTy sz al) β) (t : τ) :
    ∃ e, Api.popInto (sizedP c sz al) env v = some e ∧
      SameOutcome (Verif.run e m (v, t)) (Verif.run (given env x) m (v.drops, t)) (fun v' ds => v'.Holds c xs ∧ v'.drops = ds)
        (fun v' ds => v'.Holds c xs ∧ v'.drops = ds) := by
  obtain ⟨st, v1, h1, hg⟩ := popIntoUnchecked_gives h env
  refine ⟨(sizedP c sz al).popIntoUnchecked env, ?_, hg.run h1 m t⟩
  unfold Api.popInto
  rw [if_pos (by show v.len ≠ 0; rw [h.len]; simp)]

theorem popInto_nil (h : v.Holds c []) (env : Env (Val (sizedTy sz al) β)) : Api.popInto (sizedP c sz al) env v = none := by
  unfold Api.popInto
  rw [if_neg (by show ¬ v.len ≠ 0; rw [h.len]; simp)]

theorem removeInto_run (h : v.Holds c xs) (env : Env (Val (sizedTy sz al) β)) {k : Nat} (hk : k < xs.length) {τ : Type}
    (m : Emplacer τ (sizedTy sz al) β) (t : τ) :
    SameOutcome (Verif.run (Api.removeInto (sizedP c sz al) env k) m (v, t)) (Verif.run (given env xs[k]) m (v.drops, t))
      (fun v' ds => v'.Holds c (xs.eraseIdx k) ∧ v'.drops = ds) (fun v' ds => v'.Holds c xs.dropLast ∧ v'.drops = ds) := by
  obtain ⟨st, v1, h1, hg⟩ := removeIntoUnchecked_gives h env hk
  refine hg.run ?_ m t
  unfold Api.removeInto
  rw [Exec.get_bind, Exec.assert_bind (by show k < v.len; rw [h.len]; exact hk)]
  exact h1

theorem removeInto_out (h : v.Holds c xs) (env : Env (Val (sizedTy sz al) β)) {k : Nat} (hk : xs.length ≤ k) :
    Api.removeInto (sizedP c sz al) env k v = .panic v := by
  unfold Api.removeInto
  rw [Exec.get_bind]
  exact Exec.assert_bind_neg (p := k < v.len) (by rw [h.len]; omega) _ _

/-! ## shrinking -/

/-- The capacity after shrinking to `n` elements and `b` bytes. -/
def shrunkTo (v : SVec sz al β) (len n b : Nat) : Nat := max len (min v.slots (max n ((b + sz - 1) / sz)))

theorem shrinkTo_meets (h : v.Holds c xs) (hz : 0 < sz) (env : Env (Val (sizedTy sz al) β)) (n b : Nat) :
    (shrinkTo env n b v).Meets
      (fun _ v' => v'.Holds c xs ∧ v'.drops = v.drops ∧ v'.slots = v.shrunkTo xs.length n b)
      (fun _ => False) (env.infoShrink = false ∧ v.shrunkTo xs.length n b < v.slots) := by
  have hslots : v.capacity c = v.slots := by unfold capacity; rw [if_neg (by omega)]
  have hcap := h.cap
  rw [hslots] at hcap
  have heq : stdShrinkTo v.slots v.len (max n ((b + sz - 1) / sz)) = v.shrunkTo xs.length n b := by
    unfold stdShrinkTo shrunkTo
    rw [h.len]
    split <;> omega
  unfold shrinkTo
  rw [Exec.bind_ok (divCeil_eq hz v), Exec.get_bind, heq]
  by_cases hab : v.shrunkTo xs.length n b < v.slots ∧ env.infoShrink = false
  · rw [if_pos hab]; exact ⟨hab.2, hab.1⟩
  · rw [if_neg hab]
    have hle : v.shrunkTo xs.length n b ≤ v.slots := by unfold shrunkTo; omega
    have hc : ({ v with slots := v.shrunkTo xs.length n b } : SVec sz al β).capacity c = v.shrunkTo xs.length n b := by
      unfold capacity; rw [if_neg (by omega)]
    refine ⟨⟨h.wf, h.len, h.mem, h.slotLen, ?_, ?_⟩, rfl, rfl⟩
    · rw [hc]; unfold shrunkTo; omega
    · rw [hc]
      have h1 := h.capMax
      rw [hslots] at h1
      exact Nat.le_trans (Nat.mul_le_mul_right _ hle) h1

/-- Every method that shrinks. -/
theorem shrinking_meets (h : v.Holds c xs) (hz : 0 < sz) (env : Env (Val (sizedTy sz al) β)) (q : Shrinking) :
    (q.run c (sizedP c sz al) env v).Meets
      (fun _ v' => v'.Holds c xs ∧ v'.drops = v.drops ∧ v'.slots = v.shrunkTo xs.length q.slots (q.bytes c))
      (fun _ => False) (env.infoShrink = false ∧ v.shrunkTo xs.length q.slots (q.bytes c) < v.slots) := by
  cases q with
  | toFit => exact shrinkTo_meets h hz env _ _
  | elems n => exact shrinkTo_meets h hz env _ _
  | capBytes n b => exact shrinkTo_meets h hz env _ _
  | capBytesAlign n b al => exact shrinkTo_meets h hz env _ _

/-! ## drop -/

theorem dropLoop_meets (env : Env (Val (sizedTy sz al) β)) : ∀ (xs : List (Val (sizedTy sz al) β)) (b : Bool) (v : SVec sz al β),
    (dropLoop env b xs v).Meets
      (fun _ v' => v'.drops = v.drops ++ xs ∧ b = false ∧ ∀ x ∈ xs, env.dropPanics x = false)
      (fun v' => v'.drops = v.drops ++ xs ∧ (b = true ∨ ∃ x ∈ xs, env.dropPanics x = true))
      ((b = true ∧ ∃ x ∈ xs, env.dropPanics x = true) ∨
        ∃ i j, ∃ (hi : i < xs.length) (hj : j < xs.length), i < j ∧ env.dropPanics xs[i] = true ∧ env.dropPanics xs[j] = true)
  | [], b, v => by
    unfold dropLoop
    cases b
    · exact ⟨(List.append_nil _).symm, rfl, fun _ h => by cases h⟩
    · exact ⟨(List.append_nil _).symm, .inl rfl⟩
  | x :: xs, b, v => by
    unfold dropLoop
    rw [Exec.modify_bind]
    by_cases hp : env.dropPanics x = true
    · rw [if_pos hp]
      cases b
      · refine (dropLoop_meets env xs true _).mono ?_ ?_ ?_
        · rintro _ v' ⟨_, h, _⟩; cases h
        · rintro v' ⟨h1, _⟩
          exact ⟨by rw [h1]; simp, .inr ⟨x, by simp, hp⟩⟩
        · rintro (⟨_, y, hy, h1⟩ | ⟨i, j, hi, hj, h1, h2, h3⟩)
          · obtain ⟨j, hj, rfl⟩ := List.getElem_of_mem hy
            exact .inr ⟨0, j + 1, by simp, by simpa using hj, by omega, hp, by simpa using h1⟩
          · exact .inr ⟨i + 1, j + 1, by simpa using hi, by simpa using hj, by omega, by simpa using h2, by simpa using h3⟩
      · exact .inl ⟨rfl, x, by simp, hp⟩
    · rw [if_neg hp]
      refine (dropLoop_meets env xs b _).mono ?_ ?_ ?_
      · rintro _ v' ⟨h1, h2, h3⟩
        refine ⟨by rw [h1]; simp, h2, ?_⟩
        intro y hy
        rcases List.mem_cons.mp hy with rfl | hy
        · simpa using hp
        · exact h3 y hy
      · rintro v' ⟨h1, h2⟩
        refine ⟨by rw [h1]; simp, h2.imp id ?_⟩
        rintro ⟨y, hy, h3⟩
        exact ⟨y, List.mem_cons_of_mem _ hy, h3⟩
      · rintro (⟨h0, y, hy, h1⟩ | ⟨i, j, hi, hj, h1, h2, h3⟩)
        · exact .inl ⟨h0, y, List.mem_cons_of_mem _ hy, h1⟩
        · exact .inr ⟨i + 1, j + 1, by simpa using hi, by simpa using hj, by omega, by simpa using h2, by simpa using h3⟩

theorem Holds.slots_eq (h : v.Holds c xs) : (List.range v.len).map v.slot = xs := by
  rw [h.len]
  refine List.ext_getElem (by simp) ?_
  intro i h1 h2
  rw [List.getElem_map, List.getElem_range, slot_eq h h2]

theorem dropLoop_slots (env : Env (Val (sizedTy sz al) β)) : ∀ (xs : List (Val (sizedTy sz al) β)) (b : Bool) (v : SVec sz al β),
    (dropLoop env b xs v).Meets (fun _ v' => v'.len = v.len ∧ v'.slots = v.slots) (fun v' => v'.len = v.len ∧ v'.slots = v.slots) True
  | [], b, v => by
    unfold dropLoop
    cases b
    · exact ⟨rfl, rfl⟩
    · exact ⟨rfl, rfl⟩
  | x :: xs, b, v => by
    unfold dropLoop
    rw [Exec.modify_bind]
    by_cases hp : env.dropPanics x = true
    · rw [if_pos hp]
      cases b
      · exact dropLoop_slots env xs true _
      · trivial
    · rw [if_neg hp]
      exact dropLoop_slots env xs b _

theorem drop_meets (h : v.Holds c xs) (env : Env (Val (sizedTy sz al) β)) :
    (drop env v).Meets
      (fun _ v' => (v'.drops = v.drops ++ xs ∧ ∀ x ∈ xs, env.dropPanics x = false) ∧ v'.len = 0 ∧ v'.slots = 0)
      (fun v' => (v'.drops = v.drops ++ xs ∧ ∃ x ∈ xs, env.dropPanics x = true) ∧ v'.len = 0 ∧ v'.slots = 0)
      (∃ i j, ∃ (hi : i < xs.length) (hj : j < xs.length), i < j ∧ env.dropPanics xs[i] = true ∧ env.dropPanics xs[j] = true) := by
  unfold drop
  rw [Exec.get_bind, Exec.modify_bind, h.slots_eq]
  have k1 := dropLoop_meets env xs false { v with len := 0, slots := 0 }
  have k2 := dropLoop_slots env xs false { v with len := 0, slots := 0 }
  revert k1 k2
  cases dropLoop env false xs { v with len := 0, slots := 0 } with
  | ok _ v' => rintro ⟨h1, _, h2⟩ k2; exact ⟨⟨h1, h2⟩, k2⟩
  | panic v' => rintro ⟨h1, h2⟩ k2; exact ⟨⟨h1, h2.resolve_left (by decide)⟩, k2⟩
  | abort =>
    rintro (⟨h1, _⟩ | h1) _
    · cases h1
    · exact h1
  | ub => exact fun h _ => h.elim

/-! ## zero-sized elements -/

section zst
variable {w : SVec 0 al β} {ys : List (Val (sizedTy 0 al) β)}

theorem capacity_zst (w : SVec 0 al β) : w.capacity c = c.usizeMax := rfl

theorem exact_zst (h : w.Holds c ys) (env : Env (Val (sizedTy 0 al) β)) (n b a : Nat) (hn : ys.length + n ≤ c.usizeMax) :
    Api.tryReserveExactCapacityBytesAlign (sizedP c 0 al) env n b a w = .panic w := by
  unfold Api.tryReserveExactCapacityBytesAlign
  rcases tryReserve_cases h env n with ⟨v1, h1, hg⟩ | ⟨e, h1, hf, hlt⟩
  · rw [hg.idle hn] at h1
    rw [Exec.bind_ok (show (sizedP c 0 al).tryReserve env n w = _ from h1)]
    exact tryReserveAdditionalBytes_zst h env b
  · rw [capacity_zst] at hlt; omega

theorem capBytes_zst (h : w.Holds c ys) (env : Env (Val (sizedTy 0 al) β)) (n b a : Nat) (hn : ys.length + n ≤ c.usizeMax) :
    Api.tryReserveCapacityBytesAlign c (sizedP c 0 al) env n b a w = .panic w := by
  unfold Api.tryReserveCapacityBytesAlign Api.tryReserve
  rcases tryReserve_cases h env n with ⟨v1, h1, hg⟩ | ⟨e, h1, hf, hlt⟩
  · rw [hg.idle hn] at h1
    rw [Exec.bind_ok (show (sizedP c 0 al).tryReserve env n w = _ from h1)]
    dsimp only
    rw [Exec.get_bind, Exec.debugAssert_bind (by show c.usizeMax ≥ w.len + n; rw [h.len]; exact hn)]
    rw [Exec.bind_ok (show Api.toAlign (sizedP c 0 al) a w = .ok a w from rfl)]
    have hun : Api.unusedByteCap (sizedP c 0 al) w = some 0 := by
      unfold Api.unusedByteCap uncheckedSub
      rw [show (sizedP c 0 al).byteCapacity w = _ from byteCapacity_eq h, show (sizedP c 0 al).byteLen w = _ from byteLen_eq h]
      rfl
    rw [Exec.orUb_bind (show (sizedP c 0 al).byteCapacity w = _ from byteCapacity_eq h), Exec.orUb_bind hun]
    have hadd : ∀ b', (sizedP c 0 al).tryReserveAdditionalBytesAlign env b' a w = .panic w := fun b' => tryReserveAdditionalBytes_zst h env b'
    have hrn : ∀ b' b'', Api.reserveNeeded c (sizedP c 0 al) env b' b'' a w = .panic w := by
      intro b' b''
      unfold Api.reserveNeeded
      exact Exec.bind_panic (hadd _)
    generalize hopt : (if b - 0 > 0 then _ else 0 : Nat) = opt
    split
    · exact Exec.bind_panic (hadd _)
    · exact hrn _ _
  · rw [capacity_zst] at hlt; omega

theorem push_zst (h : w.Holds c ys) (hn : ys.length < c.usizeMax) (env : Env (Val (sizedTy 0 al) β)) (x : Val (sizedTy 0 al) β) :
    Api.push c (sizedP c 0 al) env x w = .panic w := by
  unfold Api.push Api.reserveCapacityBytesAlign
  exact Exec.bind_panic (Exec.bind_panic (capBytes_zst h env _ _ _ hn))

theorem insert_zst (h : w.Holds c ys) (hn : ys.length < c.usizeMax) (env : Env (Val (sizedTy 0 al) β)) (k : Nat) (x : Val (sizedTy 0 al) β) :
    Api.insert c (sizedP c 0 al) env k x w = .panic w := by
  unfold Api.insert
  rw [Exec.get_bind]
  by_cases hk : k ≤ w.len
  · rw [Exec.assert_bind (p := k ≤ (sizedP c 0 al).len w) hk]
    unfold Api.reserveCapacityBytesAlign
    exact Exec.bind_panic (Exec.bind_panic (capBytes_zst h env _ _ _ hn))
  · exact Exec.assert_bind_neg (p := k ≤ w.len) hk _ _

theorem shrinkTo_zst (env : Env (Val (sizedTy 0 al) β)) (n b : Nat) : shrinkTo env n b w = .panic w := by
  unfold shrinkTo
  exact Exec.bind_panic (divCeil_zero _ _)

theorem shrinking_zst (env : Env (Val (sizedTy 0 al) β)) (q : Shrinking) : q.run c (sizedP c 0 al) env w = .panic w := by
  cases q with
  | toFit => exact shrinkTo_zst env 0 0
  | elems n => exact shrinkTo_zst env n c.usizeMax
  | capBytes n b => exact shrinkTo_zst env n b
  | capBytesAlign n b al => exact shrinkTo_zst env n b

end zst

end SVec
end Verif
