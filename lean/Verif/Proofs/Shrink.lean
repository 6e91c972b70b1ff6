import Verif.Proofs.Iter
import Verif.Proofs.Observe
import Verif.Spec.Shrink

set_option linter.unusedSectionVars false

/-!
# Shrinking
-/

namespace Verif

theorem stdShrinkTo_eq {cap len n : Nat} (h : len ≤ cap) : stdShrinkTo cap len n = max len (min cap n) := by
  unfold stdShrinkTo
  split
  · rw [Nat.min_eq_right (by omega)]
  · rw [Nat.min_eq_left (by omega), Nat.max_eq_right h]

section
variable {T : UTy} {β R : Type}

theorem infosFrom_congr {enc : T.Meta → R} {w w' : Nat → Nat} {off : Nat} {xs : List (Val T β)}
    (h : ∀ x ∈ xs.dropLast, w x.size = w' x.size) : infosFrom enc w off xs = infosFrom enc w' off xs := by
  induction xs generalizing off with
  | nil => rfl
  | cons x xs ih =>
    cases xs with
    | nil => rfl
    | cons y ys =>
      have := ih (off := off + w' x.size) (fun z hz => h z (by rw [List.dropLast_cons_cons]; exact List.mem_cons_of_mem _ hz))
      rw [infosFrom_cons, h x (by simp), this]; rfl

theorem memAt_congr_width {mem : Nat → β} {w w' : Nat → Nat} {off : Nat} {xs : List (Val T β)}
    (h : ∀ x ∈ xs.dropLast, w x.size = w' x.size) (hm : MemAt mem w off xs) : MemAt mem w' off xs := by
  induction xs generalizing off with
  | nil => trivial
  | cons x xs ih =>
    refine ⟨hm.1, ?_⟩
    cases xs with
    | nil => trivial
    | cons y ys =>
      rw [← h x (by simp)]
      exact ih (fun z hz => h z (by rw [List.dropLast_cons_cons]; exact List.mem_cons_of_mem _ hz)) hm.2

theorem totalWidth_congr {w w' : Nat → Nat} {xs : List (Val T β)}
    (h : ∀ x ∈ xs, w x.size = w' x.size) : totalWidth w xs = totalWidth w' xs := by
  induction xs with
  | nil => rfl
  | cons x xs ih => rw [totalWidth_cons, totalWidth_cons, h x (by simp), ih (fun z hz => h z (by simp [hz]))]

theorem extent_congr {w w' : Nat → Nat} {xs : List (Val T β)}
    (h : ∀ x ∈ xs.dropLast, w x.size = w' x.size) : extent w xs = extent w' xs := by
  unfold extent
  rw [totalWidth_congr h]

theorem padTo_extent {a : Nat} (ha : 0 < a) (xs : List (Val T β)) : padTo a (extent (padTo a) xs) = totalWidth (padTo a) xs := by
  rcases List.eq_nil_or_concat xs with rfl | ⟨ys, x, rfl⟩
  · simp
  · rw [List.concat_eq_append, extent_concat, padTo_add ha (dvd_totalWidth ys)]; simp

theorem copy_self [Inhabited β] {h : Heap β} {p s n : Nat} (hs : s + n ≤ h.span p) : h.copy p s s n = some h := by
  rw [copy_eq hs hs]
  congr 1
  cases h with
  | mk mem block leaks =>
    simp only [Heap.mk.injEq, and_true]
    funext i
    split
    · congr 1; omega
    · rfl

end

namespace UVec
variable {T : UTy} {β : Type} {G : Prop} {c : Cfg} {v : UVec T β} {xs : List (Val T β)}

theorem one_le_maxAlign (xs : List (Val T β)) : 1 ≤ maxAlign xs := by
  induction xs with
  | nil => exact Nat.le_refl _
  | cons x xs ih => unfold maxAlign; omega

theorem le_maxAlign {x : Val T β} (hx : x ∈ xs) : x.align ≤ maxAlign xs := by
  induction xs with
  | nil => simp at hx
  | cons y ys ih =>
    unfold maxAlign
    rcases List.mem_cons.1 hx with rfl | hx
    · exact Nat.le_max_left _ _
    · have := ih hx; omega

theorem maxAlign_isAlign (hc : 0 < c.bits) (hw : ∀ x ∈ xs, x.WF c) : IsAlign c (maxAlign xs) := by
  induction xs with
  | nil => exact IsAlign.one hc
  | cons x xs ih => exact IsAlign.max (hw x (by simp)).align_pow (ih fun y hy => hw y (by simp [hy]))

theorem maxAlign_le {a : Nat} (ha : 1 ≤ a) (h : ∀ x ∈ xs, x.align ≤ a) : maxAlign xs ≤ a := by
  induction xs with
  | nil => exact ha
  | cons x xs ih =>
    have h1 := h x (by simp)
    have h2 := ih fun y hy => h y (by simp [hy])
    unfold maxAlign; omega

theorem foldl_max (xs : List (Val T β)) (a : Nat) (ha : 1 ≤ a) :
    (xs.map Val.align).foldl max a = max a (maxAlign xs) := by
  induction xs generalizing a with
  | nil => unfold maxAlign; simp; omega
  | cons x xs ih =>
    rw [List.map_cons, List.foldl_cons, ih _ (by omega), show maxAlign (x :: xs) = max x.align (maxAlign xs) from rfl]
    omega

theorem Represents.le_align (h : v.Represents G c xs) {x : Val T β} (hx : x ∈ xs) : x.align ≤ v.align :=
  Nat.le_of_dvd h.al.pos (h.elemAl x hx)

theorem shrunkAlign_le (h : v.Represents G c xs) (m : Nat) : v.shrunkAlign xs m ≤ v.align := by
  have := maxAlign_le h.al.pos (fun x hx => h.le_align hx)
  unfold shrunkAlign; omega

theorem shrunkAlign_isAlign (h : v.Represents G c xs) {m : Nat} (hm : IsAlign c m) : IsAlign c (v.shrunkAlign xs m) :=
  (hm.min h.al).max (maxAlign_isAlign h.al.bits_pos h.wf)

variable [Inhabited β]

theorem take_aligns (h : v.Represents G c xs) (n : Nat) : ∀ (i : Nat) (it : UIter T), i + n = xs.length → Covers v xs it i xs.length →
    ∃ rs it', it.take c v.heap n = some (rs, it') ∧ rs.map (fun r => T.alignOf r.md) = (xs.drop i).map Val.align := by
  induction n with
  | zero =>
    intro i it hi _
    exact ⟨[], it, rfl, by rw [List.drop_eq_nil_of_le (by omega)]; rfl⟩
  | succ n ih =>
    intro i it hi hc
    have hi' : i < xs.length := by omega
    obtain ⟨it', h1, h2⟩ := (iter_works h).next_lt hc hi'
    obtain ⟨rs, it'', h3, h4⟩ := ih (i + 1) it' (by omega) h2
    refine ⟨⟨v.ptr, at_ v xs i, xs[i].md⟩ :: rs, it'', ?_, ?_⟩
    · have h1 : it.next c v.heap = some (getUnchecked c v i, it') := h1
      unfold UIter.take
      rw [h1, get_at h hi']
      simp only [Option.bind_eq_bind, Option.bind_some, h3]
      rfl
    · rw [List.drop_eq_getElem_cons hi', List.map_cons, List.map_cons, h4]
      rfl

theorem maxAlignOfElems_eq (h : v.Represents G c xs) : v.maxAlignOfElems c = some (maxAlign xs) := by
  unfold maxAlignOfElems
  obtain ⟨rs, it', h1, h2⟩ := take_aligns h xs.length 0 v.iter (by omega) (iter_covers h)
  rw [h.len_eq, h1]
  simp only [Option.bind_eq_bind, Option.bind_some, h2, List.drop_zero]
  cases xs with
  | nil => rfl
  | cons x xs =>
    have := (h.wf x (by simp)).align_pow
    have hx : 1 ≤ x.align := IsAlign.pos this
    simp only [List.map_cons]
    rw [foldl_max xs _ hx]
    rfl

/-! ## `realign_down` when nothing has to move -/

theorem realignDownMove_id {a b p : Nat} (ha : IsAlign c a) (hb : IsAlign c b) (hd : b ∣ a) (H : Heap β) :
    ∀ (xs : List (Val T β)) (off : Nat), a ∣ off → (∀ x ∈ xs.dropLast, padTo a x.size = padTo b x.size) →
      off + totalWidth (padTo a) xs ≤ c.isizeMax → off + totalWidth (padTo a) xs ≤ H.span p →
      realignDownMove c a b p (windows (infosFrom id (padTo a) off xs)) 0 H = some H := by
  intro xs
  induction xs with
  | nil => intros; rfl
  | cons x xs ih =>
    intro off hoff hp hm hs
    cases xs with
    | nil => rfl
    | cons y ys =>
      have hx := hp x (by simp)
      have h1 : windows (infosFrom id (padTo a) off (x :: y :: ys)) =
          (⟨x.md, off + x.size⟩, ⟨y.md, off + padTo a x.size + y.size⟩) ::
            windows (infosFrom (R := T.Meta) id (padTo a) (off + padTo a x.size) (y :: ys)) := rfl
      rw [h1]
      have hoff' : a ∣ off + padTo a x.size := Nat.dvd_add hoff (dvd_padTo _ _)
      have hboff : b ∣ off := Nat.dvd_trans hd hoff
      have hboff' : b ∣ off + padTo a x.size := Nat.dvd_trans hd hoff'
      simp only [totalWidth_cons] at hm hs
      have hle := le_padTo ha.pos x.size
      have hley := le_padTo ha.pos y.size
      have hyb : padTo b y.size ≤ padTo a y.size := padTo_least hb.pos (Nat.dvd_trans hd (dvd_padTo _ _)) hley
      have e1 : padTo b (off + x.size) = off + padTo a x.size := by rw [padTo_add hb.pos hboff, hx]
      have e2 : padTo a (off + padTo a x.size + y.size) = off + padTo a x.size + padTo a y.size := padTo_add ha.pos hoff' _
      have e3 : padTo b (off + padTo a x.size + y.size) = off + padTo a x.size + padTo b y.size := padTo_add hb.pos hboff' _
      unfold realignDownMove
      simp only [Option.bind_eq_bind]
      rw [VSU.uncheckedSub_eq (by omega) (by omega), Option.bind_some, VSU.uncheckedPadTo_eq hb (by omega) (by rw [e1]; omega),
        Option.bind_some, e1, VSU.uncheckedSub_eq (by omega) (by omega), Option.bind_some, Nat.sub_zero, Nat.sub_zero,
        VSU.uncheckedSub_eq (by omega) (by omega), Option.bind_some, copy_self (by omega), Option.bind_some,
        VSU.uncheckedPadTo_eq ha (by omega) (by rw [e2]; omega), Option.bind_some,
        VSU.uncheckedPadTo_eq hb (by omega) (by rw [e3]; omega), Option.bind_some, e2, e3,
        VSU.uncheckedSub_eq (by omega) (by omega), Option.bind_some, VSU.uncheckedAdd_eq (by omega), Option.bind_some]
      cases ys with
      | nil => rfl
      | cons z zs =>
        have hy := hp y (by simp)
        rw [hy, Nat.sub_self, Nat.add_zero]
        refine ih _ hoff' (fun u hu => hp u (by rw [List.dropLast_cons_cons]; exact List.mem_cons_of_mem _ hu)) ?_ ?_
        · simp only [totalWidth_cons] at hm ⊢; omega
        · simp only [totalWidth_cons] at hs ⊢; omega

theorem Represents.stores (h : v.Represents G c xs) : v.Stores c xs :=
  ⟨h.wf, h.al, h.elemAl, h.infos, h.recs, h.cap, False.elim, h.room, h.mem, h.block, h.leaks⟩

theorem Represents.holds (h : v.Represents G c xs) (hd : v.align ∣ v.byteCap) : v.Holds c xs :=
  ⟨h.wf, h.al, h.elemAl, h.infos, h.recs, h.cap, fun _ => hd, h.room, h.mem, h.block, h.leaks⟩

/-- The storage after shrinking: either as before because the allocator refused, or of the target size. -/
structure Recut (c : Cfg) (env : Env (Val T β)) (v v' : UVec T β) (xs : List (Val T β)) (cap a : Nat) : Prop where
  stores : v'.Stores c xs
  drops : v'.drops = v.drops
  elemsCap : v'.elemsCap = v.elemsCap
  size : (v'.byteCap = v.byteCap ∧ v'.align = v.align ∧ env.alloc ⟨cap, a⟩ = none) ∨ (cap ≤ v'.byteCap ∧ (env.Exact → v'.byteCap = cap) ∧ v'.align = a)

theorem shrinkInfos_meets (h : v.Represents G c xs) (env : Env (Val T β)) (n : Nat) :
    (shrinkInfos env n v).Meets (fun _ v' => v' = { v with elemsCap := max xs.length (min v.elemsCap n) }) (fun _ => False)
      (env.infoShrink = false ∧ max xs.length (min v.elemsCap n) < v.elemsCap) := by
  unfold shrinkInfos
  rw [Exec.get_bind, h.len_eq, stdShrinkTo_eq h.recs]
  split
  · next hab => exact ⟨hab.2, hab.1⟩
  · rfl

theorem shrinkCommit_meets (h : v.Represents G c xs) {env : Env (Val T β)} (hv : env.Valid) (bytes : Nat) {b : Nat}
    (ha' : IsAlign c b) (hale : b ≤ v.align) (helem : ∀ x ∈ xs, x.align ∣ b)
    (hok : ∀ x ∈ xs.dropLast, padTo v.align x.size = padTo b x.size) {nr : Bool} (hnr : nr = true → b < v.align ∧ xs.length > 1) :
    (shrinkCommit c env bytes b nr v).Meets
      (fun _ v' => Recut c env v v' xs (max (min bytes v.byteCap) (totalWidth (padTo b) xs)) b) (fun _ => False) False := by
  have hl := h.length
  have hcap := h.cap
  have hmax := h.capMax
  have hd : b ∣ v.align := ha'.dvd_of_le h.al hale
  have hex : extent (padTo v.align) xs = extent (padTo b) xs := extent_congr hok
  have hmono : totalWidth (padTo b) xs ≤ totalWidth (padTo v.align) xs := totalWidth_mono_align ha'.pos h.al.pos hd xs
  have hinf : infosFrom (R := T.Meta) id (padTo v.align) 0 xs = infosFrom id (padTo b) 0 xs := infosFrom_congr hok
  have hexle : extent (padTo b) xs ≤ totalWidth (padTo b) xs := extent_le _ (le_padTo ha'.pos) xs
  unfold shrinkCommit
  rw [Exec.get_bind, unalignedByteLen_eq h, hex]
  rw [Exec.orUb_bind (VSU.uncheckedPadTo_eq ha' (by omega) (by rw [padTo_extent ha'.pos]; omega)), padTo_extent ha'.pos,
    Exec.orUb_bind (VSU.newUnchecked_eq (by omega))]
  generalize hC : max (min bytes v.byteCap) (totalWidth (padTo b) xs) = cap at *
  have hscle : cap ≤ v.byteCap := by omega
  have htw : totalWidth (padTo b) xs ≤ cap := by omega
  rw [Exec.debugAssert_bind (by omega)]
  by_cases hdo : cap < v.byteCap ∨ b < v.align
  rotate_left
  · rw [if_neg hdo]
    have hbe : v.align = b := by omega
    exact ⟨h.stores, rfl, rfl, .inr ⟨by omega, fun _ => by omega, hbe⟩⟩
  rw [if_pos hdo]
  have hroom := h.room
  rw [Exec.orUb_bind (layoutUnchecked_eq h.al hroom)]
  have hb1 := ha'.pos
  have hstores : ∀ w : UVec T β, w.elems = v.elems → w.elemsCap = v.elemsCap → w.align = b → totalWidth (padTo b) xs ≤ w.byteCap →
      w.byteCap + (b - 1) ≤ c.isizeMax → (∀ i, i < totalWidth (padTo b) xs → w.heap.mem i = v.heap.mem i) →
      BlockOk w.heap w.ptr w.byteCap b → w.heap.leaks = 0 → w.Stores c xs := by
    intro w w1 w2 w3 h1 h2 h3 h4 h5
    refine ⟨h.wf, by rw [w3]; exact ha', by rw [w3]; exact helem, by rw [w3, w1]; exact h.infos.trans hinf,
      by rw [w2]; exact h.recs, by rw [w3]; exact h1, False.elim, by rw [w3]; exact h2, ?_, by rw [w3]; exact h4, h5⟩
    rw [w3]
    refine (memAt_congr_width hok h.mem).congr (fun x hx => by rw [(h.wf x hx).bytes_len]; exact le_padTo ha'.pos _) ?_
    intro i hi
    simpa using h3 i hi
  by_cases h0 : cap > 0
  rotate_left
  · rw [if_neg h0]
    unfold releaseAll
    rw [Exec.bind_assoc_apply, Exec.get_bind]
    by_cases hc0 : v.byteCap > 0
    · rw [if_pos hc0, Exec.bind_assoc_apply]
      rw [Exec.orUb_bind (show v.heap.deallocate v.ptr ⟨v.byteCap, v.align⟩ = some { v.heap with block := none } by
        unfold Heap.deallocate; rw [if_neg (by simp; omega), if_pos (h.block.fits hc0)]), Exec.set_bind]
      refine ⟨hstores _ rfl rfl rfl (by dsimp only; omega) (by dsimp only; omega) (fun _ _ => rfl)
        ⟨hb1, Nat.dvd_refl _, rfl⟩ h.leaks, rfl, rfl, .inr ⟨by omega, fun _ => ?_, rfl⟩⟩
      show 0 = _; omega
    · rw [if_neg hc0, Exec.set_bind]
      have hz : v.byteCap = 0 := by omega
      have hbl := h.block
      rw [hz] at hbl
      refine ⟨hstores _ rfl rfl rfl (by dsimp only; omega) (by dsimp only; omega) (fun _ _ => rfl)
        ⟨hb1, Nat.dvd_refl _, ?_⟩ h.leaks, rfl, rfl, .inr ⟨by dsimp only; omega, fun _ => ?_, rfl⟩⟩
      · dsimp only
        rw [hbl.none_of_zero]; exact hz
      · show v.byteCap = _; omega
  rw [if_pos h0]
  have hfits := h.block.fits (show 0 < v.byteCap by omega)
  have hsh : v.heap.shrink env v.ptr ⟨v.byteCap, v.align⟩ ⟨cap, b⟩ =
      match env.alloc ⟨cap, b⟩ with
      | none => some none
      | some r => some (some (Heap.fresh (fun i => if i < cap then v.heap.mem i else default) ⟨cap, b⟩ r v.heap.leaks, r.1, cap + r.2)) := by
    unfold Heap.shrink
    rw [if_pos ⟨hfits, hscle⟩]
    rfl
  cases hall : env.alloc ⟨cap, b⟩ with
  | none =>
    rw [hall] at hsh
    cases nr with
    | true =>
      obtain ⟨hc1, hc2⟩ := hnr rfl
      obtain ⟨mem', hrun, hmem'⟩ := realignUp_spec (v := { v with align := b }) (xs := xs) h.al hc1
        (by dsimp only; omega) h.wf ha' (h.infos.trans hinf) (memAt_congr_width hok h.mem) h.total_le
        (by have := h.span; dsimp only; omega)
      have hrun' : realigner c b v = .ok () { v with elems := infosFrom id (padTo v.align) 0 xs, heap := { v.heap with mem := mem' } } := by
        unfold realigner
        rw [Exec.get_bind, Exec.modify_bind, Exec.bind_ok hrun]
        rfl
      have hblk : shrinkBlock c env ⟨v.byteCap, v.align⟩ cap b true v =
          .ok false { v with elems := infosFrom id (padTo v.align) 0 xs, heap := { v.heap with mem := mem' } } := by
        unfold shrinkBlock
        rw [Exec.orUb_bind (layoutUnchecked_eq ha' (by omega)), Exec.get_bind, Exec.orUb_bind hsh]
        dsimp only
        rw [if_pos rfl, Exec.bind_ok hrun']
        rfl
      rw [Exec.bind_ok hblk]
      exact ⟨⟨h.wf, h.al, h.elemAl, rfl, h.recs, h.cap, False.elim, h.room, hmem', h.block.mem_eq rfl, h.leaks⟩, rfl, rfl, .inl ⟨rfl, rfl, hall⟩⟩
    | false =>
      have hblk : shrinkBlock c env ⟨v.byteCap, v.align⟩ cap b false v = .ok false v := by
        unfold shrinkBlock
        rw [Exec.orUb_bind (layoutUnchecked_eq ha' (by omega)), Exec.get_bind, Exec.orUb_bind hsh]
        rfl
      rw [Exec.bind_ok hblk]
      exact ⟨h.stores, rfl, rfl, .inl ⟨rfl, rfl, hall⟩⟩
  | some r =>
    obtain ⟨p, x⟩ := r
    have hvv := hv _ _ _ hb1 hall
    have hex' : env.Exact → x = 0 := fun he => he _ _ _ hall
    generalize hM : min (cap + x) (c.isizeMax - (b - 1)) = cap'
    have hb1' := ha'.sub_one_le
    have hge : cap ≤ cap' := by omega
    rw [hall] at hsh
    have hblk : shrinkBlock c env ⟨v.byteCap, v.align⟩ cap b nr v =
        .ok true { v with byteCap := cap', ptr := p, heap := Heap.fresh (fun i => if i < cap then v.heap.mem i else default) ⟨cap, b⟩ (p, x) v.heap.leaks } := by
      unfold shrinkBlock
      rw [Exec.orUb_bind (layoutUnchecked_eq ha' (by omega)), Exec.get_bind, Exec.orUb_bind hsh]
      dsimp only
      rw [Exec.orUb_bind (VSU.newSquishedTo_eq ha'), hM]
      rfl
    rw [Exec.bind_ok hblk, if_pos rfl]
    refine ⟨hstores _ rfl rfl rfl (by dsimp only; omega) (by dsimp only; omega) (fun i hi => ?_) ?_ h.leaks, rfl, rfl, .inr ⟨hge, fun he => by have := hex' he; dsimp only; omega, rfl⟩⟩
    · show (if i < cap then v.heap.mem i else default) = _
      rw [if_pos (by omega)]
    · exact ⟨hvv.1, hvv.2, Nat.lt_of_lt_of_le h0 hge, rfl, rfl, hge, by dsimp only [Heap.fresh]; omega⟩

/-- The vector after shrinking: either the storage is as before because the allocator refused, or it has the target size (up
to what the allocator returned on top). -/
structure Shrunk (c : Cfg) (env : Env (Val T β)) (v v' : UVec T β) (xs : List (Val T β)) (n bytes al : Nat) : Prop where
  stores : v'.Stores c xs
  drops : v'.drops = v.drops
  elemsCap : v'.elemsCap = max xs.length (min v.elemsCap n)
  size : (v'.byteCap = v.byteCap ∧ v'.align = v.align ∧ env.alloc ⟨v.shrunkCap xs bytes al, v.shrunkAlign xs al⟩ = none) ∨
    (v.shrunkCap xs bytes al ≤ v'.byteCap ∧ (env.Exact → v'.byteCap = v.shrunkCap xs bytes al) ∧ v'.align = v.shrunkAlign xs al)

theorem shrinkTo_meets (h : v.Represents G c xs) {env : Env (Val T β)} (hv : env.Valid) (n bytes : Nat) {al : Nat}
    (hal : IsAlign c al) (hok : v.ShrinkOk xs al) :
    (shrinkTo c env n bytes al v).Meets (fun _ v' => Shrunk c env v v' xs n bytes al) (fun _ => False)
      (env.infoShrink = false ∧ max xs.length (min v.elemsCap n) < v.elemsCap) := by
  unfold shrinkTo
  refine (shrinkInfos_meets h env n).bind ?_
  rintro _ w rfl
  have h' := h.withElemsCap (n := max xs.length (min v.elemsCap n)) (by omega)
  have ha' := shrunkAlign_isAlign h hal
  have hale := shrunkAlign_le h al
  have helem : ∀ x ∈ xs, x.align ∣ v.shrunkAlign xs al := by
    intro x hx
    have h1 := le_maxAlign hx
    exact IsAlign.dvd_of_le (h.wf x hx).align_pow ha' (by unfold shrunkAlign; omega)
  have hd : v.shrunkAlign xs al ∣ v.align := ha'.dvd_of_le h.al hale
  rw [Exec.get_bind, Exec.orUb_bind (maxAlignOfElems_eq h')]
  dsimp only
  rw [show max (min al v.align) (maxAlign xs) = v.shrunkAlign xs al from rfl, Exec.debugAssert_bind hale]
  have fin : ∀ w', Recut c env { v with elemsCap := max xs.length (min v.elemsCap n) } w' xs (v.shrunkCap xs bytes al) (v.shrunkAlign xs al) →
      Shrunk c env v w' xs n bytes al := fun w' hw => ⟨hw.stores, hw.drops, hw.elemsCap, hw.size⟩
  split
  · next hc =>
    have hc : v.shrunkAlign xs al < v.align ∧ xs.length > 1 := ⟨hc.1, h.len_eq ▸ hc.2⟩
    have hdown : realignDown c (v.shrunkAlign xs al) { v with elemsCap := max xs.length (min v.elemsCap n) } =
        .ok () { v with elemsCap := max xs.length (min v.elemsCap n) } := by
      have := realignDownMove_id (c := c) (p := v.ptr) h.al ha' hd v.heap xs 0 (Nat.dvd_zero _) hok (by have := h.total_le; omega)
        (by have := h.span; have := h.cap; omega)
      unfold realignDown
      rw [Exec.get_bind, Exec.debugAssert_bind (by exact ⟨by rw [h'.len_eq]; exact hc.2, hc.1⟩)]
      rw [Exec.orUb_bind (a := v.heap) (by dsimp only; rw [h.infos]; exact this)]
      rfl
    rw [Exec.bind_ok hdown]
    exact (shrinkCommit_meets h' hv bytes ha' hale helem hok (fun _ => hc)).mono (fun _ w' hw => fin w' hw) (fun _ h => h) (fun h => h.elim)
  · exact (shrinkCommit_meets h' hv bytes ha' hale helem hok (by simp)).mono (fun _ w' hw => fin w' hw) (fun _ h => h) (fun h => h.elim)

/-- If the target capacity is a multiple of the new alignment, the whole invariant holds. -/
theorem Shrunk.holds (h : v.Holds c xs) {env : Env (Val T β)} (he : env.Exact) {v' : UVec T β} {n bytes al : Nat}
    (hs : Shrunk c env v v' xs n bytes al) (hc : v.CapOk xs bytes al) : v'.Holds c xs := by
  refine hs.stores.holds ?_
  rcases hs.size with ⟨h1, h2, _⟩ | ⟨_, h1, h2⟩
  · rw [h1, h2]; exact h.capDvd trivial
  · rw [h1 he, h2]; exact hc

theorem Represents.weaken (h : v.Represents G c xs) {G' : Prop} (hd : G' → v.align ∣ v.byteCap) : v.Represents G' c xs :=
  ⟨h.wf, h.al, h.elemAl, h.infos, h.recs, h.cap, hd, h.room, h.mem, h.block, h.leaks⟩

theorem Shrunk.represents (h : v.Represents G c xs) {env : Env (Val T β)} (he : G → env.Exact) {v' : UVec T β} {n bytes al : Nat}
    (hs : Shrunk c env v v' xs n bytes al) (hc : G → v.CapOk xs bytes al) : v'.Represents G c xs := by
  refine hs.stores.weaken (fun hG => ?_)
  rcases hs.size with ⟨h1, h2, _⟩ | ⟨_, h1, h2⟩
  · rw [h1, h2]; exact h.capDvd hG
  · rw [h1 (he hG), h2]; exact hc hG

end UVec

namespace AVec
variable {A : ATy} {β : Type} [Inhabited β] {c : Cfg} {v : AVec A β} {xs : List (Val A.ty β)}

theorem shrinkInfos_meets (h : v.Holds c xs) (env : Env (Val A.ty β)) (n : Nat) :
    (shrinkInfos env n v).Meets (fun _ v' => v' = { v with elemsCap := max xs.length (min v.elemsCap n) }) (fun _ => False)
      (env.infoShrink = false ∧ max xs.length (min v.elemsCap n) < v.elemsCap) := by
  unfold shrinkInfos
  rw [Exec.get_bind, h.len_eq, stdShrinkTo_eq h.recs]
  split
  · next hab => exact ⟨hab.2, hab.1⟩
  · rfl

/-- The vector after shrinking: either the storage is as before because the allocator refused, or it has the target size (up
to what the allocator returned on top). -/
structure Shrunk (c : Cfg) (env : Env (Val A.ty β)) (v v' : AVec A β) (xs : List (Val A.ty β)) (n bytes : Nat) : Prop where
  holds : v'.Holds c xs
  drops : v'.drops = v.drops
  elemsCap : v'.elemsCap = max xs.length (min v.elemsCap n)
  size : (v'.byteCap = v.byteCap ∧ env.alloc ⟨v.shrunkCap xs bytes, A.ALIGN⟩ = none) ∨
    (v.shrunkCap xs bytes ≤ v'.byteCap ∧ (env.Exact → v'.byteCap = v.shrunkCap xs bytes))

theorem shrinkTo_meets (hA : A.Fits c) (h : v.Holds c xs) {env : Env (Val A.ty β)} (hv : env.Valid) (n bytes : Nat) :
    (shrinkTo c env n bytes v).Meets (fun _ v' => Shrunk c env v v' xs n bytes) (fun _ => False)
      (env.infoShrink = false ∧ max xs.length (min v.elemsCap n) < v.elemsCap) := by
  have hl := h.length
  have hcap := h.cap
  have hmax := h.capMax
  have hroom := VS.max_room hA.al hmax
  unfold shrinkTo
  refine (shrinkInfos_meets h env n).bind ?_
  rintro _ w rfl
  have h' := h.withElemsCap (n := max xs.length (min v.elemsCap n)) (by omega)
  rw [Exec.get_bind]
  dsimp only
  rw [byteLen_eq h']
  have hsc : v.shrunkCap xs bytes = max (min bytes v.byteCap) (totalWidth id xs) := rfl
  split
  rotate_left
  · next hlt => exact ⟨h', rfl, rfl, .inr ⟨by dsimp only; omega, fun _ => by dsimp only; omega⟩⟩
  next hlt =>
  have hC : max (totalWidth id xs) bytes = v.shrunkCap xs bytes := by omega
  rw [hC] at hlt ⊢
  rw [Exec.orUb_bind (VS.newUnchecked_eq (by omega)), Exec.orUb_bind (layoutUnchecked_eq hA.al hroom)]
  have hfits := h.block.fits (show 0 < v.byteCap by omega)
  split
  · next h0 =>
    rw [Exec.orUb_bind (show v.heap.deallocate v.ptr ⟨v.byteCap, A.ALIGN⟩ = some { v.heap with block := none } by
        unfold Heap.deallocate; rw [if_neg (by simp; omega), if_pos hfits])]
    exact ⟨⟨h.wf, h.keeps, h.infos, h'.recs, by dsimp only; omega, Nat.zero_le _, h.mem, ⟨hA.al.pos, Nat.dvd_refl _, rfl⟩, h.leaks⟩, rfl, rfl,
      .inr ⟨by dsimp only; omega, fun _ => h0.symm⟩⟩
  · next h0 =>
    rw [Exec.orUb_bind (layoutUnchecked_eq hA.al (by omega))]
    have hsh : v.heap.shrink env v.ptr ⟨v.byteCap, A.ALIGN⟩ ⟨v.shrunkCap xs bytes, A.ALIGN⟩ =
        match env.alloc ⟨v.shrunkCap xs bytes, A.ALIGN⟩ with
        | none => some none
        | some r => some (some (Heap.fresh (fun i => if i < v.shrunkCap xs bytes then v.heap.mem i else default)
            ⟨v.shrunkCap xs bytes, A.ALIGN⟩ r v.heap.leaks, r.1, v.shrunkCap xs bytes + r.2)) := by
      unfold Heap.shrink
      rw [if_pos ⟨hfits, Nat.le_of_lt hlt⟩]
      rfl
    cases hall : env.alloc ⟨v.shrunkCap xs bytes, A.ALIGN⟩ with
    | none =>
      rw [hall] at hsh
      rw [Exec.orUb_bind hsh]
      exact ⟨h', rfl, rfl, .inl ⟨rfl, hall⟩⟩
    | some r =>
      obtain ⟨p, x⟩ := r
      have hvv := hv _ _ _ hA.al.pos hall
      rw [hall] at hsh
      rw [Exec.orUb_bind hsh]
      dsimp only
      rw [VS.newSquished_eq]
      refine ⟨⟨h.wf, h.keeps, h.infos, h'.recs, ?_, ?_, ?_, ⟨hvv.1, hvv.2, ?_, rfl, rfl, ?_, ?_⟩, h.leaks⟩, rfl, rfl, .inr ⟨?_, fun hx => ?_⟩⟩
      · show _ ≤ min _ _; omega
      · exact Nat.min_le_right _ _
      · refine h.mem.congr (fun x hx => by rw [(h.wf x hx).bytes_len]; exact Nat.le_refl _) ?_
        intro i hi
        show (if 0 + i < v.shrunkCap xs bytes then v.heap.mem (0 + i) else default) = _
        rw [if_pos (by omega)]
      · show 0 < min _ _; omega
      · show v.shrunkCap xs bytes ≤ min _ _; omega
      · show min _ _ ≤ v.shrunkCap xs bytes + x; omega
      · show _ ≤ min _ _; omega
      · have := hx _ _ _ hall
        show min _ _ = _; omega

end AVec

/-! ## the public methods -/

theorem Shrinking.run_unaligned {T : UTy} {β : Type} [Inhabited β] {c : Cfg} (env : Env (Val T β)) (s : Shrinking)
    (hs : IsAlign c (s.align c)) (v : UVec T β) :
    s.run c (unalignedP c T) env v = UVec.shrinkTo c env s.slots (s.bytes c) (s.align c) v := by
  have key : ∀ n b a, IsAlign c a →
      Api.shrinkCapacityBytesAlignTo (unalignedP (β := β) c T) env n b a v = UVec.shrinkTo c env n b a v := by
    intro n b a ha
    unfold Api.shrinkCapacityBytesAlignTo Api.toAlign
    rw [show (unalignedP (β := β) c T).alignNew a = _ from validAlign_new_eq ha]
    rfl
  cases s with
  | toFit => exact key _ _ _ hs
  | elems n => exact key _ _ _ hs
  | capBytes n b => exact key _ _ _ hs
  | capBytesAlign n b al => exact key _ _ _ hs

theorem Shrinking.run_aligned {A : ATy} {β : Type} [Inhabited β] {c : Cfg} (env : Env (Val A.ty β)) (s : Shrinking) (v : AVec A β) :
    s.run c (alignedP c A) env v = AVec.shrinkTo c env s.slots (s.bytes c) v := by
  cases s <;> rfl

theorem UVec.shrunkAlign_top {T : UTy} {β : Type} {G : Prop} {c : Cfg} {v : UVec T β} {xs : List (Val T β)} (h : v.Represents G c xs) :
    v.shrunkAlign xs (2 ^ (c.bits - 1)) = v.align := by
  have h1 : v.align ≤ 2 ^ (c.bits - 1) := by
    obtain ⟨k, hk, he⟩ := h.al
    rw [he]; exact Nat.pow_le_pow_right (by decide) (by omega)
  have h2 := maxAlign_le h.al.pos (fun x hx => h.le_align hx)
  unfold UVec.shrunkAlign
  omega

theorem isAlign_top {c : Cfg} (h : 0 < c.bits) : IsAlign c (2 ^ (c.bits - 1)) := ⟨c.bits - 1, by omega, rfl⟩

end Verif
