import Verif.Proofs.UImpl

/-!
# Zero-sized elements with a strict alignment, in a dynamically aligned vector without memory
-/

namespace Verif
namespace UVec
variable {T : UTy} {β : Type} {c : Cfg} {v : UVec T β} {xs : List (Val T β)} [Inhabited β]

theorem isAlign_new {a : Nat} (h : IsAlign c a) : ValidAlign.new a = some a := (UVec.impl (β := Nat) True c ⟨Unit, fun _ => 0, fun _ => 1⟩).alignNew h

omit [Inhabited β] in
theorem totalWidth_zero {w w' : Nat → Nat} (hw : ∀ n, n ≤ w n) (h0 : w' 0 = 0) {xs : List (Val T β)} (h : totalWidth w xs = 0) :
    totalWidth w' xs = 0 := by
  induction xs with
  | nil => rfl
  | cons x xs ih =>
    rw [totalWidth_cons] at h ⊢
    have h1 := hw x.size
    have h2 : x.size = 0 := by omega
    rw [h2, h0, ih (by omega)]

/-- An alignment-only request to a vector without memory: only the pointer changes. -/
theorem tryReserveAdditional_alignOnly (h : v.Holds c xs) (env : Env (Val T β)) {al : Nat} (hal : IsAlign c al)
    (h0 : v.byteCap = 0) (hlt : v.align < al) :
    tryReserveAdditionalBytesAlign c env 0 al v = .ok (.ok ()) { v with ptr := al } := by
  have hcap := h.cap
  have hm : max v.align al = al := Nat.max_eq_right (Nat.le_of_lt hlt)
  have hw : totalWidth (padTo v.align) xs = 0 := by omega
  have hw' : totalWidth (padTo al) xs = 0 := totalWidth_zero h.le_w (padTo_zero al) hw
  have hab : v.align ∣ al := h.al.dvd_of_le hal (Nat.le_of_lt hlt)
  unfold tryReserveAdditionalBytesAlign
  rw [Exec.get_bind, Exec.orUb_bind (alignedByteLen_eq h)]
  simp only [hm]
  rw [if_pos hlt, Exec.debugAssert_bind (Nat.le_max_left _ _)]
  have hlen : v.lenAfterRealignUp c al = some (some 0) := by
    have := lenAfterRealignUpGo_eq (T := T) h.al hal hab xs 0 0 (by simp) (by simp)
    unfold lenAfterRealignUp
    rw [h.infos]
    simpa [hw'] using this
  rw [Exec.orUb_bind hlen]
  dsimp only
  rw [Exec.orUb_bind (VSU.uncheckedSub_eq (by omega) (by omega))]
  unfold reserveCommit
  rw [Exec.get_bind]
  dsimp only
  have hz : padTo al (padTo al (v.byteCap + (0 - totalWidth (padTo v.align) xs)) + 0) = 0 := by rw [h0, hw]; simp
  rw [Exec.orUb_bind (checkedAddPad2 hal), hz, if_pos (Nat.zero_le _)]
  dsimp only
  rw [if_pos (.inl hlt), if_neg (by omega), Exec.modify_bind]
  rfl

theorem alignOnly_holds (h : v.Holds c xs) {al : Nat} (hal : IsAlign c al) (h0 : v.byteCap = 0) (hlt : v.align < al) :
    ({ v with ptr := al } : UVec T β).Holds c xs := by
  refine ⟨h.wf, h.al, h.elemAl, h.infos, h.recs, h.cap, h.capDvd, h.room, h.mem, ?_, h.leaks⟩
  have := h.block
  rw [h0] at this
  refine ⟨hal.pos, h.al.dvd_of_le hal (Nat.le_of_lt hlt), ?_⟩
  simp only [this.none_of_zero, h0]

/-- `reserve_capacity_bytes_align(n, 0, al)` on a vector without memory. -/
theorem tryReserve_alignOnly (h : v.Holds c xs) (env : Env (Val T β)) {al : Nat} (hal : IsAlign c al)
    (h0 : v.byteCap = 0) (hlt : v.align < al) (n : Nat) :
    (∃ cap, Api.tryReserveCapacityBytesAlign c (unalignedP c T) env n 0 al v = .ok (.ok ()) { v with ptr := al, elemsCap := cap } ∧
      xs.length + n ≤ cap ∧ (xs.length + n ≤ v.elemsCap → cap = v.elemsCap)) ∨
    (∃ e, Api.tryReserveCapacityBytesAlign c (unalignedP c T) env n 0 al v = .ok (.error e) v ∧
      ((e = .capacityOverflow ∧ c.infoMax < xs.length + n) ∨ env.infoGrow (xs.length + n) = .error e) ∧
      v.elemsCap < xs.length + n) := by
  have hcap := h.cap
  unfold Api.tryReserveCapacityBytesAlign Api.tryReserve
  rcases tryReserve_spec h env n with ⟨cap, h1, h2, h3, h4⟩ | ⟨e, h1, h2⟩
  · left
    have h' := h.withElemsCap (n := cap) (by omega)
    refine ⟨cap, ?_, h2, h4⟩
    rw [Exec.bind_ok (show (unalignedP c T).tryReserve env n v = _ from h1)]
    dsimp only
    rw [Exec.get_bind, Exec.debugAssert_bind (by show _ ≤ _; rw [(UVec.impl True c T).len_eq h']; exact h2)]
    unfold Api.toAlign
    rw [show (unalignedP (β := β) c T).alignNew al = some al from isAlign_new hal]
    dsimp only
    rw [Exec.pure_bind_apply, Exec.orUb_bind (show (unalignedP c T).byteCapacity { v with elemsCap := cap } = some v.byteCap from rfl)]
    have hun : Api.unusedByteCap (unalignedP c T) ({ v with elemsCap := cap } : UVec T β) = some 0 := by
      unfold Api.unusedByteCap uncheckedSub
      simp only [show (unalignedP c T).byteCapacity { v with elemsCap := cap } = some v.byteCap from rfl,
        show (unalignedP c T).byteLen { v with elemsCap := cap } = _ from alignedByteLen_eq h', Option.bind_eq_bind, Option.bind_some]
      have : totalWidth (padTo v.align) xs = 0 := by omega
      rw [this, h0]
      simp
    rw [Exec.orUb_bind hun]
    simp only [Nat.sub_self]
    rw [if_neg (by simp)]
    unfold Api.reserveNeeded
    rw [Exec.bind_ok (show (unalignedP c T).tryReserveAdditionalBytesAlign env 0 al _ = _ from tryReserveAdditional_alignOnly h' env hal h0 hlt)]
    have h'' := alignOnly_holds h' hal h0 hlt
    rw [Exec.bind_ok ((UVec.impl True c T).byteCapAssert_ok (b := 0) h'' (by show _ ≤ _; exact h''.cap))]
    rfl
  · right
    refine ⟨e, ?_, h2⟩
    rw [Exec.bind_ok (show (unalignedP c T).tryReserve env n v = _ from h1)]
    rfl

/-- The vector after pushing `x`. -/
def overaligned (v : UVec T β) (xs : List (Val T β)) (x : Val T β) (cap : Nat) : UVec T β :=
  { v with ptr := x.align, elemsCap := cap, elems := infosFrom id (padTo v.align) 0 (xs ++ [x]) }

theorem pushUnchecked_over (h : v.Holds c xs) {x : Val T β} (hx : x.WF c) (h0 : v.byteCap = 0) (hx0 : x.size = 0)
    (hlt : v.align < x.align) (hr : xs.length < v.elemsCap) :
    pushUnchecked c x { v with ptr := x.align } =
      if c.debug then .panic { v with ptr := x.align } else .ok () (overaligned v xs x v.elemsCap) := by
  have h' := alignOnly_holds h hx.align_pow h0 hlt
  have hl := h.length
  have hcap := h.cap
  have hw : totalWidth (padTo v.align) xs = 0 := by omega
  unfold pushUnchecked
  rw [Exec.get_bind, Exec.debugAssert_bind (by unfold len; simp only; omega), Exec.orUb_bind (alignedByteLen_eq h'),
    Exec.debugAssert_bind (by simp only; omega)]
  cases hd : c.debug with
  | true =>
    rw [if_pos rfl]
    refine Exec.bind_panic ?_
    unfold Exec.debugAssert
    rw [if_pos ⟨rfl, by simp only; omega⟩]
  | false =>
    rw [if_neg (by simp)]
    have hn : Exec.debugAssert (σ := UVec T β) false (v.align ≥ x.align) { v with ptr := x.align } = .ok () { v with ptr := x.align } := by
      unfold Exec.debugAssert; rfl
    rw [Exec.bind_ok hn, Exec.bind_ok (memwrite_eq (by rw [hx.bytes_len]; simp only; omega)),
      Exec.orUb_bind (VSU.uncheckedAdd_eq (by simp only; omega)), infoPush_eq (by simp only; omega)]
    unfold overaligned
    rw [infosFrom_concat, ← h.infos]
    have hb : x.bytes = [] := List.length_eq_zero_iff.1 (by rw [hx.bytes_len, hx0])
    have hwr : written v.heap.mem (totalWidth (padTo v.align) xs) x.bytes = v.heap.mem := by
      funext i; unfold written; rw [hb, if_neg (by simp)]
    simp [hwr]

/-- Anything that is added next gets memory of the old alignment, which need not be aligned for `x`. -/
theorem push_over_next (h : v.Holds c xs) {env : Env (Val T β)} {x y : Val T β} (h0 : v.byteCap = 0)
    (hx0 : x.size = 0) (hy : y.WF c) (hy0 : 0 < y.size) (hya : y.align ≤ v.align) {cap : Nat} (hr : xs.length + 2 ≤ cap) {p : Nat}
    (hfit : padTo v.align y.size ≤ c.isizeMax) (ha : env.alloc ⟨padTo v.align y.size, v.align⟩ = some (p, 0))
    (hp : ¬ x.align ∣ p) :
    ∃ v', Api.push c (unalignedP c T) env y (overaligned v xs x cap) = .ok () v' ∧
      Api.get (unalignedP c T) v' xs.length = none := by
  have hcap := h.cap
  have hl := h.length
  have hw : totalWidth (padTo v.align) xs = 0 := by omega
  have hw2 : totalWidth (padTo v.align) (xs ++ [x]) = 0 := by
    rw [totalWidth_append, hw]; simp [hx0]
  have hex : extent (padTo v.align) (xs ++ [x]) = 0 := by
    have := extent_le (padTo v.align) h.le_w (xs ++ [x]); omega
  have hpy := le_padTo h.al.pos y.size
  have hbl : ∀ w : UVec T β, w.elems = (overaligned v xs x cap).elems → w.align = v.align → w.alignedByteLen c = some 0 := by
    intro w hw1 hw3
    unfold alignedByteLen unalignedByteLen
    rw [hw1, hw3]
    unfold overaligned
    dsimp only
    rw [lastEnd_infosFrom, hex, VSU.uncheckedPadTo_eq h.al (by omega) (by simp)]
    simp
  generalize hN : padTo v.align y.size = N at *
  have hdN : v.align ∣ N := hN ▸ dvd_padTo _ _
  have hroom := h.al.room hdN hfit
  have hbn : v.heap.block = none := by
    have := h.block
    rw [h0] at this
    exact this.none_of_zero
  let u : UVec T β := overaligned v xs x cap
  have hul : u.len = xs.length + 1 := by simp [u, overaligned, len]
  let u2 : UVec T β := { u with byteCap := N, ptr := p, heap := Heap.fresh (fun _ => default) ⟨N, v.align⟩ (p, 0) v.heap.leaks }
  have hsp : u2.heap.span p = N := by simp [u2, Heap.fresh, Heap.span]
  have h1 : (unalignedP c T).tryReserve env 1 u = .ok (.ok ()) u := by
    show UVec.tryReserve c env 1 u = _
    unfold tryReserve stdReserve
    rw [Exec.get_bind, if_pos (by rw [hul]; show 1 ≤ cap - _; omega)]
    rfl
  have h2 : (unalignedP c T).tryReserveAdditionalBytesAlign env y.size y.align u = .ok (.ok ()) u2 := by
    show UVec.tryReserveAdditionalBytesAlign c env y.size y.align u = _
    unfold tryReserveAdditionalBytesAlign
    have hua : u.align = v.align := rfl
    have hmx : max u.align y.align = v.align := by rw [hua]; exact Nat.max_eq_left hya
    rw [Exec.get_bind, Exec.orUb_bind (hbl u rfl rfl)]
    simp only [hmx]
    rw [if_neg (by omega), if_neg (by omega), Exec.orUb_bind (VSU.uncheckedSub_eq (Nat.le_refl _) (by omega))]
    unfold reserveCommit
    have hub : u.byteCap = 0 := h0
    have hc2 : padTo v.align (padTo v.align (u.byteCap + (0 - 0)) + y.size) = N := by rw [hub]; simp [hN]
    rw [Exec.get_bind]
    dsimp only
    rw [Exec.orUb_bind (checkedAddPad2 h.al), hc2, if_pos hfit]
    dsimp only
    rw [if_pos (.inr (by omega)), if_pos (by omega), Exec.orUb_bind (layoutUnchecked_eq h.al hroom)]
    have hg : u.growStorage c env ⟨N, v.align⟩ = some (some (Heap.fresh (fun _ => default) ⟨N, v.align⟩ (p, 0) v.heap.leaks, p, N)) := by
      unfold growStorage
      rw [if_pos hub]
      unfold Heap.allocate
      rw [ha]
      simp [u, overaligned, hbn]
    rw [Exec.orUb_bind hg]
    dsimp only
    rw [Exec.orUb_bind (VSU.newSquishedTo_eq h.al), Exec.modify_bind, if_neg (by rw [hua]; omega), Nat.min_eq_left (by omega)]
    rfl
  have h3 : Api.byteCapAssert c (unalignedP c T) y.size u2 = .ok () u2 := by
    unfold Api.byteCapAssert
    rw [Exec.get_bind, Exec.orUb_bind (show (unalignedP c T).byteCapacity u2 = some N from rfl),
      Exec.orUb_bind (show (unalignedP c T).byteLen u2 = some 0 from hbl u2 rfl rfl), Exec.debugAssert_pos (by omega)]
  have h4 : Api.reserveCapacityBytesAlign c (unalignedP c T) env 1 y.size y.align u = .ok () u2 := by
    unfold Api.reserveCapacityBytesAlign Api.tryReserveCapacityBytesAlign Api.tryReserve
    rw [Exec.bind_assoc_apply, Exec.bind_ok h1]
    dsimp only
    rw [Exec.bind_assoc_apply, Exec.get_bind, Exec.bind_assoc_apply,
      Exec.debugAssert_bind (by show u.len + 1 ≤ cap; omega)]
    unfold Api.toAlign
    rw [show (unalignedP (β := β) c T).alignNew y.align = some y.align from isAlign_new hy.align_pow]
    dsimp only
    have hun : Api.unusedByteCap (unalignedP c T) u = some 0 := by
      unfold Api.unusedByteCap uncheckedSub
      simp only [show (unalignedP c T).byteCapacity u = some v.byteCap from rfl,
        show (unalignedP c T).byteLen u = _ from hbl u rfl rfl, Option.bind_eq_bind, Option.bind_some, h0]
      simp
    rw [Exec.bind_assoc_apply, Exec.pure_bind_apply, Exec.bind_assoc_apply,
      Exec.orUb_bind (show (unalignedP c T).byteCapacity u = some v.byteCap from rfl), Exec.bind_assoc_apply, Exec.orUb_bind hun, h0]
    simp only [Nat.sub_zero]
    rw [if_neg (by simp [hy0])]
    unfold Api.reserveNeeded
    rw [Exec.bind_assoc_apply, Exec.bind_ok h2, Exec.bind_assoc_apply, Exec.bind_ok h3]
    rfl
  let u3 : UVec T β := { u2 with heap := { u2.heap with mem := written u2.heap.mem 0 y.bytes } }
  have h5 : (unalignedP c T).pushUnchecked y u2 = .ok () { u3 with elems := u3.elems ++ [⟨y.md, y.size⟩] } := by
    show UVec.pushUnchecked c y u2 = _
    unfold pushUnchecked
    rw [Exec.get_bind, Exec.debugAssert_bind (by show cap - u.len > 0; omega), Exec.orUb_bind (hbl u2 rfl rfl),
      Exec.debugAssert_bind (by show N ≥ 0 + y.size; omega), Exec.debugAssert_bind (by show v.align ≥ y.align; exact hya),
      Exec.bind_ok (show memwrite u2.ptr 0 y.bytes u2 = .ok () u3 from
        memwrite_eq (by rw [hy.bytes_len]; show _ ≤ u2.heap.span p; omega)),
      Exec.orUb_bind (VSU.uncheckedAdd_eq (by omega)), infoPush_eq (by show u.elems.length < cap; unfold len at hul; omega)]
    simp
  refine ⟨_, by unfold Api.push; rw [Exec.bind_ok h4]; exact h5, ?_⟩
  have hel : u3.elems = infosFrom id (padTo v.align) 0 (xs ++ [x]) := rfl
  have hinf : (u3.elems ++ [⟨y.md, y.size⟩])[xs.length]? = some ⟨x.md, 0⟩ := by
    rw [List.getElem?_append_left (by rw [hel]; simp), hel, infosFrom_getElem?]
    simp [hw, hx0]
  have hst : UVec.startOffset c { u3 with elems := u3.elems ++ [⟨y.md, y.size⟩] } xs.length = some 0 := by
    unfold startOffset
    cases hxl : xs.length with
    | zero => rfl
    | succ j =>
      have hj : j < xs.length := by omega
      have htj : totalWidth (padTo v.align) (xs.take j) + xs[j].size = 0 := by
        have h1 := totalWidth_take_succ (padTo v.align) xs j hj
        have h2 := totalWidth_take_le (padTo v.align) xs (j + 1)
        have h3 := h.le_w xs[j].size
        omega
      dsimp only
      rw [List.getElem?_append_left (by rw [hel]; simp; omega), hel, infosFrom_getElem?]
      rw [List.getElem?_append_left hj, List.getElem?_eq_getElem hj]
      simp only [Option.map_some, List.take_append_of_le_length (Nat.le_of_lt hj), Nat.zero_add, htj]
      have := VSU.uncheckedPadTo_eq (x := 0) h.al (Nat.zero_le _) (by simp)
      rw [padTo_zero] at this
      exact this
  unfold Api.get
  rw [if_pos (by show xs.length < (u3.elems ++ _).length; rw [hel]; simp; omega)]
  show (UVec.getUnchecked c _ _).map _ = none
  unfold getUnchecked
  simp only [hst, hinf, Option.bind_eq_bind, Option.bind_some]
  rw [VSU.uncheckedSub_eq (Nat.le_refl _) (by omega)]
  simp only [Option.bind_some]
  unfold mkRef
  rw [if_neg]
  · rfl
  · intro hh
    have h9 : (u3.ptr + 0) % T.alignOf x.md = 0 := hh.2.2
    exact hp (Nat.dvd_of_mod_eq_zero h9)

/-- `push` of such an element. -/
theorem push_over (h : v.Holds c xs) (env : Env (Val T β)) {x : Val T β} (hx : x.WF c) (h0 : v.byteCap = 0) (hx0 : x.size = 0)
    (hlt : v.align < x.align)
    (hr : v.elemsCap ≤ xs.length → xs.length < c.infoMax ∧ ∃ m, env.infoGrow (xs.length + 1) = .ok m) :
    ∃ cap, xs.length < cap ∧ (xs.length < v.elemsCap → cap = v.elemsCap) ∧ Api.push c (unalignedP c T) env x v =
      if c.debug then .panic { v with ptr := x.align, elemsCap := cap } else .ok () (overaligned v xs x cap) := by
  rcases tryReserve_alignOnly h env hx.align_pow h0 hlt 1 with ⟨cap, h1, h2, h3⟩ | ⟨e, _, h2, h3⟩
  · refine ⟨cap, h2, h3, ?_⟩
    have h4 : Api.reserveCapacityBytesAlign c (unalignedP c T) env 1 x.size x.align v = .ok () { v with ptr := x.align, elemsCap := cap } := by
      unfold Api.reserveCapacityBytesAlign
      rw [hx0, Exec.bind_ok h1]
      rfl
    unfold Api.push
    rw [Exec.bind_ok h4]
    exact pushUnchecked_over (h.withElemsCap (n := cap) (by omega)) hx h0 hx0 hlt h2
  · obtain ⟨h4, m, h5⟩ := hr (by omega)
    rcases h2 with h2 | h2
    · omega
    · rw [h5] at h2; cases h2

/-- `push_with` of such an element: no build notices. -/
theorem pushWith_over (h : v.Holds c xs) (env : Env (Val T β)) {x : Val T β} (hx : x.WF c) (h0 : v.byteCap = 0) (hx0 : x.size = 0)
    (hlt : v.align < x.align)
    (hr : v.elemsCap ≤ xs.length → xs.length < c.infoMax ∧ ∃ m, env.infoGrow (xs.length + 1) = .ok m) (ds : List (Val T β)) :
    ∃ cap, xs.length < cap ∧ (xs.length < v.elemsCap → cap = v.elemsCap) ∧
      Api.pushWithRun (unalignedP c T) env (given env x) (ds, v) = .ok () (ds, overaligned v xs x cap) := by
  have hcap := h.cap
  rcases tryReserve_spec h env 1 with ⟨cap, h1, h2, h3, h4⟩ | ⟨e, _, h2, h3⟩
  · refine ⟨cap, h2, h4, ?_⟩
    have h' := h.withElemsCap (n := cap) (by omega)
    have hw : totalWidth (padTo v.align) xs = 0 := by omega
    let u : UVec T β := { v with ptr := x.align, elemsCap := cap }
    have h5 : UVec.reserveForEmplace c env ⟨x.size, x.align⟩ v = .ok () u := by
      unfold reserveForEmplace
      rw [Exec.bind_ok h1]
      dsimp only
      rw [hx0, Exec.bind_ok (tryReserveAdditional_alignOnly h' env hx.align_pow h0 hlt)]
      rfl
    have h6 := alignOnly_holds h' hx.align_pow h0 hlt
    have hbl : u.alignedByteLen c = some 0 := by
      have := alignedByteLen_eq h6
      rw [← hw]; exact this
    have hb : x.bytes = [] := List.length_eq_zero_iff.1 (by rw [hx.bytes_len, hx0])
    have hwr : memwrite u.ptr 0 [] u = .ok () u := by
      rw [memwrite_eq (by simp)]
      have : written u.heap.mem 0 [] = u.heap.mem := by funext i; unfold written; rw [if_neg (by simp)]
      rw [this]
    unfold Api.pushWithRun run
    have hm : (Api.pushWith (unalignedP c T) env) ⟨x.size, x.align⟩ x.md v = .ok (.place
        (fun bs => do
          Exec.require (bs.length ≤ x.size)
          memwrite u.ptr 0 bs)
        (do
          let e ← Exec.orUb (VSU.uncheckedAdd c 0 x.size)
          infoPush ⟨x.md, e⟩)
        (pure ())) u := by
      show UVec.pushWith c env ⟨x.size, x.align⟩ x.md v = _
      unfold pushWith
      rw [Exec.orUb_bind (VSU.newUnchecked_eq (by dsimp only; omega)), Exec.bind_ok h5, Exec.get_bind, Exec.orUb_bind hbl,
        Exec.require_bind (by simp [Heap.addOk])]
      rfl
    have hg : (given env x) ds = .ok ⟨⟨x.size, x.align⟩, x.md, fun s => .done x.bytes s, dropGiven env x, pure ()⟩ ds := rfl
    rw [Exec.bind_ok (liftL_ok hg), Exec.bind_ok (liftR_ok hm)]
    dsimp only
    have hp : placeInto (fun s => WriteRes.done x.bytes s) (fun bs => do
          Exec.require (bs.length ≤ x.size)
          memwrite u.ptr 0 bs) (pure ()) (ds, u) = .ok () (ds, u) := by
      unfold placeInto
      dsimp only
      refine liftR_ok ?_
      rw [hb, Exec.require_bind (by simp)]
      exact hwr
    rw [Exec.bind_ok hp]
    have hc2 : (do
          let e ← Exec.orUb (VSU.uncheckedAdd c 0 x.size)
          infoPush ⟨x.md, e⟩ : Exec (UVec T β) Unit) u = .ok () (overaligned v xs x cap) := by
      rw [Exec.orUb_bind (VSU.uncheckedAdd_eq (by omega)), infoPush_eq (by show v.elems.length < cap; have := h.length; omega)]
      unfold overaligned
      rw [infosFrom_concat, ← h.infos]
      simp [u, hw]
    rw [Exec.bind_ok (liftR_ok hc2)]
    rfl
  · obtain ⟨h4, m, h5⟩ := hr (by omega)
    rcases h2 with h2 | h2
    · omega
    · rw [h5] at h2; cases h2

end UVec
end Verif
