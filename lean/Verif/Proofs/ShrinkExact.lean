import Verif.Proofs.Shrink
import Verif.Proofs.UImpl

/-!
# Pushing onto a vector whose byte capacity is not a multiple of its alignment
-/

namespace Verif
namespace UVec
variable {T : UTy} {β : Type} {c : Cfg} {v : UVec T β} {xs : List (Val T β)} [Inhabited β]

theorem tryReserve_spare (env : Env (Val T β)) {n : Nat} (hn : v.elems.length + n ≤ v.elemsCap) :
    (unalignedP c T).tryReserve env n v = .ok (.ok ()) v := by
  show UVec.tryReserve c env n v = _
  unfold tryReserve stdReserve
  rw [Exec.get_bind, if_pos (by unfold len; omega)]
  rfl

theorem push_stores (h : v.Stores c xs) (env : Env (Val T β)) {x : Val T β} (hx : x.WF c) (hal : x.align ∣ v.align)
    (hrec : xs.length < v.elemsCap) (hroom : totalWidth (padTo v.align) xs + x.size ≤ v.byteCap) :
    Api.push c (unalignedP c T) env x v = .ok () (pushed v xs x) := by
  have hl : v.elems.length = xs.length := by rw [h.infos, infosFrom_length]
  have hbl : v.alignedByteLen c = some (totalWidth (padTo v.align) xs) := alignedByteLen_eq h
  have hcm := h.capMax
  have hspan := h.block.span
  have hle := Nat.le_of_dvd h.al.pos hal
  have hun : Api.unusedByteCap (unalignedP c T) v = some (v.byteCap - totalWidth (padTo v.align) xs) := by
    unfold Api.unusedByteCap uncheckedSub
    simp only [show (unalignedP c T).byteCapacity v = some v.byteCap from rfl, show (unalignedP c T).byteLen v = _ from hbl,
      Option.bind_eq_bind, Option.bind_some]
    rw [if_pos h.cap]
  have h1 : Api.reserveCapacityBytesAlign c (unalignedP c T) env 1 x.size x.align v = .ok () v := by
    unfold Api.reserveCapacityBytesAlign Api.tryReserveCapacityBytesAlign Api.tryReserve
    rw [Exec.bind_assoc_apply, Exec.bind_ok (tryReserve_spare env (by omega))]
    dsimp only
    rw [Exec.bind_assoc_apply, Exec.get_bind, Exec.bind_assoc_apply,
      Exec.debugAssert_bind (by show v.elems.length + 1 ≤ v.elemsCap; omega)]
    unfold Api.toAlign
    rw [(UVec.impl (β := β) True c T).alignNew hx.align_pow]
    dsimp only
    rw [Exec.bind_assoc_apply, Exec.pure_bind_apply, Exec.bind_assoc_apply,
      Exec.orUb_bind (show (unalignedP c T).byteCapacity v = some v.byteCap from rfl), Exec.bind_assoc_apply, Exec.orUb_bind hun]
    have hz : x.size - (v.byteCap - totalWidth (padTo v.align) xs) = 0 := by omega
    rw [hz, if_neg (by simp)]
    unfold Api.reserveNeeded
    have h2 : (unalignedP c T).tryReserveAdditionalBytesAlign env 0 x.align v = .ok (.ok ()) v := by
      show UVec.tryReserveAdditionalBytesAlign c env 0 x.align v = _
      unfold tryReserveAdditionalBytesAlign
      rw [Exec.get_bind, Exec.orUb_bind hbl, if_neg (by omega), if_pos rfl]
      rfl
    have h3 : Api.byteCapAssert c (unalignedP c T) x.size v = .ok () v := by
      unfold Api.byteCapAssert
      rw [Exec.get_bind, Exec.orUb_bind (show (unalignedP c T).byteCapacity v = some v.byteCap from rfl),
        Exec.orUb_bind (show (unalignedP c T).byteLen v = _ from hbl), Exec.debugAssert_pos hroom]
    rw [Exec.bind_assoc_apply, Exec.bind_ok h2, Exec.bind_assoc_apply, Exec.bind_ok h3]
    rfl
  unfold Api.push
  rw [Exec.bind_ok h1]
  show UVec.pushUnchecked c x v = _
  unfold pushUnchecked
  rw [Exec.get_bind, Exec.debugAssert_bind (by unfold len; omega), Exec.orUb_bind hbl,
    Exec.debugAssert_bind hroom, Exec.debugAssert_bind hle,
    Exec.bind_ok (memwrite_eq (by rw [hx.bytes_len]; omega)),
    Exec.orUb_bind (VSU.uncheckedAdd_eq (by omega)), infoPush_eq (by simp only; omega)]
  unfold pushed
  rw [infosFrom_concat, h.infos]
  simp

theorem pushed_byteLen (h : v.Stores c xs) {x : Val T β} (hfit : totalWidth (padTo v.align) xs + padTo v.align x.size ≤ c.isizeMax) :
    (pushed v xs x).alignedByteLen c = some (totalWidth (padTo v.align) xs + padTo v.align x.size) := by
  have h1 : (pushed v xs x).unalignedByteLen = extent (padTo v.align) (xs ++ [x]) := by
    unfold unalignedByteLen
    exact lastEnd_infosFrom _ _ _
  have h2 : extent (padTo v.align) (xs ++ [x]) ≤ totalWidth (padTo v.align) (xs ++ [x]) := extent_le _ (le_padTo h.al.pos) _
  have h3 : totalWidth (padTo v.align) (xs ++ [x]) = totalWidth (padTo v.align) xs + padTo v.align x.size := by simp
  unfold alignedByteLen
  rw [h1, show (pushed v xs x).align = v.align from rfl,
    VSU.uncheckedPadTo_eq h.al (by omega) (by rw [padTo_extent h.al.pos]; omega), padTo_extent h.al.pos, h3]

/-- Once `byte_len()` exceeds `byte_capacity()`, adding anything is undefined behaviour. -/
theorem push_overfull {n : Nat} (hl : v.alignedByteLen c = some n) (hlt : v.byteCap < n) (env : Env (Val T β)) {y : Val T β} (hy : y.WF c)
    (hrec : v.elems.length < v.elemsCap) : Api.push c (unalignedP c T) env y v = .ub := by
  unfold Api.push
  refine Exec.bind_ub ?_
  unfold Api.reserveCapacityBytesAlign Api.tryReserveCapacityBytesAlign Api.tryReserve
  rw [Exec.bind_assoc_apply, Exec.bind_ok (tryReserve_spare env (by omega))]
  dsimp only
  rw [Exec.bind_assoc_apply, Exec.get_bind, Exec.bind_assoc_apply,
    Exec.debugAssert_bind (by show v.elems.length + 1 ≤ v.elemsCap; omega)]
  unfold Api.toAlign
  rw [(UVec.impl (β := β) True c T).alignNew hy.align_pow]
  dsimp only
  rw [Exec.bind_assoc_apply, Exec.pure_bind_apply, Exec.bind_assoc_apply,
    Exec.orUb_bind (show (unalignedP c T).byteCapacity v = some v.byteCap from rfl), Exec.bind_assoc_apply]
  refine Exec.bind_ub ?_
  have : Api.unusedByteCap (unalignedP c T) v = none := by
    unfold Api.unusedByteCap uncheckedSub
    simp only [show (unalignedP c T).byteCapacity v = some v.byteCap from rfl, show (unalignedP c T).byteLen v = _ from hl,
      Option.bind_eq_bind, Option.bind_some]
    rw [if_neg (by omega)]
  rw [this]
  rfl

/-! ## Lowering the alignment of a vector of two elements -/

/-- The vector after shrinking: the memory is the old one, cut to `cap` bytes. -/
def cut (v : UVec T β) (n cap b p : Nat) : UVec T β :=
  { v with elemsCap := n, byteCap := cap, ptr := p, align := b,
           heap := Heap.fresh (fun i => if i < cap then v.heap.mem i else default) ⟨cap, b⟩ (p, 0) v.heap.leaks }

theorem shrinkTo_two {x y : Val T β} (h : v.Holds c [x, y]) {env : Env (Val T β)} (he : env.Exact) (hi : env.infoShrink = true)
    (n bytes : Nat) {al : Nat} (hal : IsAlign c al) (hlow : v.shrunkAlign [x, y] al < v.align) {p e : Nat}
    (hpos : 0 < x.size)
    (hg : env.alloc ⟨max (min bytes v.byteCap) (padTo (v.shrunkAlign [x, y] al) (padTo v.align x.size + y.size)), v.shrunkAlign [x, y] al⟩ = some (p, e)) :
    shrinkTo c env n bytes al v = .ok ()
      (cut v (max 2 (min v.elemsCap n)) (max (min bytes v.byteCap) (padTo (v.shrunkAlign [x, y] al) (padTo v.align x.size + y.size)))
        (v.shrunkAlign [x, y] al) p) := by
  have ha' := shrunkAlign_isAlign h hal
  have hale := shrunkAlign_le h al
  have hd : v.shrunkAlign [x, y] al ∣ v.align := ha'.dvd_of_le h.al hale
  have hinfos : v.elems = [⟨x.md, x.size⟩, ⟨y.md, padTo v.align x.size + y.size⟩] := by
    rw [h.infos]; simp [infosFrom]
  have hcap : padTo v.align x.size + padTo v.align y.size ≤ v.byteCap := by
    have := h.cap
    simpa [totalWidth_cons] using this
  have hmax := h.capMax
  have hspan := h.span
  have hx := le_padTo h.al.pos x.size
  have hy := le_padTo h.al.pos y.size
  have hxb := le_padTo ha'.pos x.size
  have hxba := padTo_least ha'.pos (Nat.dvd_trans hd (dvd_padTo v.align x.size)) hx
  have hyba := padTo_least ha'.pos (Nat.dvd_trans hd (dvd_padTo v.align y.size)) hy
  have e1 : padTo (v.shrunkAlign [x, y] al) (padTo v.align x.size + y.size) = padTo v.align x.size + padTo (v.shrunkAlign [x, y] al) y.size :=
    padTo_add ha'.pos (Nat.dvd_trans hd (dvd_padTo _ _)) _
  have e2 : padTo v.align (padTo v.align x.size + y.size) = padTo v.align x.size + padTo v.align y.size :=
    padTo_add h.al.pos (dvd_padTo _ _) _
  have hyb := le_padTo ha'.pos y.size
  have hinf : shrinkInfos env n v = .ok () { v with elemsCap := max 2 (min v.elemsCap n) } := by
    have := shrinkInfos_meets h env n
    cases hr : shrinkInfos env n v with
    | ok u w => rw [hr] at this; rw [this]; rfl
    | panic w => rw [hr] at this; exact this.elim
    | abort => rw [hr] at this; have := this.1; rw [hi] at this; exact absurd this (by decide)
    | ub => rw [hr] at this; exact this.elim
  have h' := h.withElemsCap (n := max 2 (min v.elemsCap n)) (by simp; omega)
  unfold shrinkTo
  rw [Exec.bind_ok hinf, Exec.get_bind, Exec.orUb_bind (maxAlignOfElems_eq h')]
  dsimp only
  rw [show max (min al v.align) (maxAlign [x, y]) = v.shrunkAlign [x, y] al from rfl, Exec.debugAssert_bind hale,
    if_pos ⟨hlow, by show v.elems.length > 1; rw [hinfos]; simp⟩]
  generalize hb : v.shrunkAlign [x, y] al = b at *
  have hdown : realignDown c b { v with elemsCap := max 2 (min v.elemsCap n) } = .ok () { v with elemsCap := max 2 (min v.elemsCap n) } := by
    unfold realignDown
    rw [Exec.get_bind, Exec.debugAssert_bind (by exact ⟨by show v.elems.length > 1; rw [hinfos]; simp, hlow⟩)]
    rw [Exec.orUb_bind (a := v.heap) (by
      dsimp only
      rw [hinfos]
      show realignDownMove c v.align b v.ptr [(⟨x.md, x.size⟩, ⟨y.md, padTo v.align x.size + y.size⟩)] 0 v.heap = _
      unfold realignDownMove
      simp only [Option.bind_eq_bind]
      rw [VSU.uncheckedSub_eq (by omega) (by omega), Option.bind_some, VSU.uncheckedPadTo_eq ha' (by omega) (by omega),
        Option.bind_some, VSU.uncheckedSub_eq (by omega) (by omega), Option.bind_some, Nat.sub_zero, Nat.sub_zero,
        VSU.uncheckedSub_eq (by omega) (by omega), Option.bind_some, copy_self (by omega), Option.bind_some,
        VSU.uncheckedPadTo_eq h.al (by omega) (by rw [e2]; omega), Option.bind_some,
        VSU.uncheckedPadTo_eq ha' (by omega) (by rw [e1]; omega), Option.bind_some, e1, e2,
        VSU.uncheckedSub_eq (by omega) (by omega), Option.bind_some, VSU.uncheckedAdd_eq (by omega), Option.bind_some]
      rfl)]
    rfl
  rw [Exec.bind_ok hdown]
  unfold shrinkCommit
  rw [Exec.get_bind, show UVec.unalignedByteLen { v with elemsCap := max 2 (min v.elemsCap n) } = padTo v.align x.size + y.size by
      unfold unalignedByteLen; dsimp only; rw [hinfos]; rfl,
    Exec.orUb_bind (VSU.uncheckedPadTo_eq ha' (by omega) (by rw [e1]; omega)), Exec.orUb_bind (VSU.newUnchecked_eq (by dsimp only; omega))]
  dsimp only
  generalize hC : max (min bytes v.byteCap) (padTo b (padTo v.align x.size + y.size)) = cap at *
  have hscle : cap ≤ v.byteCap := by omega
  rw [Exec.debugAssert_bind (by omega), if_pos (.inr hlow)]
  have hroom := h.room
  rw [Exec.orUb_bind (layoutUnchecked_eq h.al hroom), if_pos (by omega)]
  have hfits := h.block.fits (show 0 < v.byteCap by omega)
  have hx0 := he _ _ _ hg
  subst hx0
  have hsh : v.heap.shrink env v.ptr ⟨v.byteCap, v.align⟩ ⟨cap, b⟩ =
      some (some (Heap.fresh (fun i => if i < cap then v.heap.mem i else default) ⟨cap, b⟩ (p, 0) v.heap.leaks, p, cap + 0)) := by
    unfold Heap.shrink
    rw [if_pos ⟨hfits, hscle⟩, hg]
  have hblk : shrinkBlock c env ⟨v.byteCap, v.align⟩ cap b true { v with elemsCap := max 2 (min v.elemsCap n) } =
      .ok true { v with elemsCap := max 2 (min v.elemsCap n), byteCap := cap, ptr := p, heap := Heap.fresh (fun i => if i < cap then v.heap.mem i else default) ⟨cap, b⟩ (p, 0) v.heap.leaks } := by
    unfold shrinkBlock
    rw [Exec.orUb_bind (layoutUnchecked_eq ha' (by have := ha'.pos; omega)), Exec.get_bind, Exec.orUb_bind hsh]
    dsimp only
    rw [Nat.add_zero, Exec.orUb_bind (VSU.newSquishedTo_eq ha'), Nat.min_eq_left (by omega)]
    rfl
  rw [Exec.bind_ok hblk, if_pos rfl]
  rfl

theorem cut_observe {x y : Val T β} (h : v.Holds c [x, y]) (n : Nat) {cap b p : Nat} (hb : IsAlign c b) (hp : b ∣ p)
    (hxa : x.align ∣ b) (hya : y.align ∣ b) (hba : b ∣ v.align) (hcap : padTo v.align x.size + y.size ≤ cap) :
    (cut v n cap b p).observe c = some [x, ⟨y.md, (List.range y.size).map (fun i => v.heap.mem (padTo b x.size + i))⟩] := by
  have hinfos : v.elems = [⟨x.md, x.size⟩, ⟨y.md, padTo v.align x.size + y.size⟩] := by
    rw [h.infos]; simp [infosFrom]
  have hxle := le_padTo h.al.pos x.size
  have hxba := padTo_least hb.pos (Nat.dvd_trans hba (dvd_padTo v.align x.size)) hxle
  have hc : padTo v.align x.size + padTo v.align y.size ≤ v.byteCap := by
    have := h.cap
    simpa [totalWidth_cons] using this
  have hmax := h.capMax
  have hspan : (cut v n cap b p).heap.span p = cap := by
    unfold cut Heap.fresh Heap.span
    simp
  have r0 : mkRef (cut v n cap b p).heap p 0 x.md = some ⟨p, 0, x.md⟩ :=
    mkRef_eq (by rw [hspan]; show 0 + x.size ≤ cap; omega) (Nat.dvd_trans hxa (by simpa using hp))
  have r1 : mkRef (cut v n cap b p).heap p (padTo b x.size) y.md = some ⟨p, padTo b x.size, y.md⟩ :=
    mkRef_eq (by rw [hspan]; show padTo b x.size + y.size ≤ cap; omega) (Nat.dvd_trans hya (Nat.dvd_add hp (dvd_padTo _ _)))
  have hmem : ∀ i, i < cap → (cut v n cap b p).heap.mem i = v.heap.mem i := by
    intro i hi
    show (if i < cap then v.heap.mem i else default) = _
    rw [if_pos hi]
  have g0 : (cut v n cap b p).getUnchecked c 0 = some ⟨p, 0, x.md⟩ := by
    unfold getUnchecked startOffset
    rw [show (cut v n cap b p).elems = _ from hinfos]
    simp only [Option.bind_eq_bind, Option.bind_some, List.getElem?_cons_zero]
    rw [VSU.uncheckedSub_eq (by omega) (by omega), Option.bind_some]
    exact r0
  have g1 : (cut v n cap b p).getUnchecked c 1 = some ⟨p, padTo b x.size, y.md⟩ := by
    unfold getUnchecked startOffset
    rw [show (cut v n cap b p).elems = _ from hinfos, show (cut v n cap b p).align = b from rfl]
    simp only [Option.bind_eq_bind, List.getElem?_cons_zero, List.getElem?_cons_succ]
    have hyle := le_padTo h.al.pos y.size
    rw [VSU.uncheckedPadTo_eq hb (by omega) (by omega), Option.bind_some, Option.bind_some]
    dsimp only
    rw [VSU.uncheckedSub_eq (by omega) (by omega), Option.bind_some]
    exact r1
  unfold observe
  rw [show (cut v n cap b p).len = 2 by show v.elems.length = 2; rw [hinfos]; rfl]
  refine mapM_range_eq (xs := [x, _]) (fun i hi => ?_)
  have hi : i < 2 := hi
  have hi2 : i = 0 ∨ i = 1 := by omega
  rcases hi2 with rfl | rfl
  · rw [g0, Option.map_some]
    congr 1
    refine Ref.read_eq rfl ?_ (h.wf x (by simp)).bytes_len
    intro j hj
    have hxl := (h.wf x (by simp)).bytes_len
    have hj' : j < x.bytes.length := hj
    have := h.mem.1 j hj'
    simp only [Nat.zero_add] at this ⊢
    rw [hmem j (by omega), this]
    rfl
  · rw [g1, Option.map_some]
    congr 1
    unfold Ref.read Heap.bytesAt
    show (⟨y.md, _⟩ : Val T β) = ⟨y.md, _⟩
    congr 1
    refine List.map_congr_left (fun j hj => ?_)
    rw [List.mem_range] at hj
    have hj : j < y.size := hj
    exact hmem _ (by show padTo b x.size + j < cap; omega)

end UVec
end Verif
