import Verif.Model.RepairsShrink
import Verif.Proofs.RepairsReserve
import Verif.Proofs.Shrink

/-!
# The corrected shrinking
-/

namespace Verif
namespace UVec
variable {T : UTy} {β : Type} [Inhabited β] {c : Cfg} {v : UVec T β} {xs : List (Val T β)}

/-- The corrected loop moves every element to its new place. -/
theorem realignDownLoopRepaired_eq {a b p : Nat} (ha : IsAlign c a) (hb : IsAlign c b) (hd : b ∣ a) :
    ∀ (xs : List (Val T β)) (old new : Nat) (h : Heap β), a ∣ old → b ∣ new → new ≤ old → (∀ x ∈ xs, x.bytes.length = x.size) →
      old + totalWidth (padTo a) xs ≤ c.isizeMax → old + totalWidth (padTo a) xs ≤ h.span p → MemAt h.mem (padTo a) old xs →
      ∃ mem', realignDownLoopRepaired c a b p (infosFrom id (padTo a) old xs) old new h =
          some (infosFrom id (padTo b) new xs, { h with mem := mem' }) ∧
        MemAt mem' (padTo b) new xs ∧ ∀ i, i < new → mem' i = h.mem i
  | [], old, new, h, _, _, _, _, _, _, _ => ⟨h.mem, rfl, trivial, fun _ _ => rfl⟩
  | x :: xs, old, new, h, hold, hnew, hle, hwf, hm, hs, hmem => by
    simp only [totalWidth_cons] at hm hs
    have hsz := le_padTo ha.pos x.size
    have hszb := le_padTo hb.pos x.size
    have hab := padTo_le_of_dvd_dvd hb.pos ha.pos hd x.size
    have hbx : x.bytes.length = x.size := hwf x (by simp)
    have hwf' : ∀ y ∈ xs, y.bytes.length = y.size := fun y hy => hwf y (by simp [hy])
    have e1 : padTo a (old + x.size) = old + padTo a x.size := padTo_add ha.pos hold _
    have e2 : padTo b (new + x.size) = new + padTo b x.size := padTo_add hb.pos hnew _
    obtain ⟨mem', h1, h2, h3⟩ := realignDownLoopRepaired_eq (p := p) ha hb hd xs (old + padTo a x.size) (new + padTo b x.size)
      { h with mem := fun i => if new ≤ i ∧ i < new + x.size then h.mem (old + (i - new)) else h.mem i }
      (Nat.dvd_add hold (dvd_padTo _ _)) (Nat.dvd_add hnew (dvd_padTo _ _)) (by omega) hwf' (by omega) (by show _ ≤ h.span p; omega)
      (hmem.2.congr (fun y hy => by rw [hwf' y hy]; exact le_padTo ha.pos _) (fun i hi => by simp only; rw [if_neg (by omega)]))
    refine ⟨mem', ?_, ⟨?_, h2⟩, ?_⟩
    · simp only [infosFrom_cons, realignDownLoopRepaired, Option.bind_eq_bind]
      rw [VSU.uncheckedSub_eq (by omega) (by omega), Option.bind_some, Nat.add_sub_cancel_left, VSU.uncheckedAdd_eq (by omega),
        Option.bind_some, copy_eq (by omega) (by omega), Option.bind_some,
        VSU.uncheckedPadTo_eq ha (by omega) (by rw [e1]; omega), Option.bind_some,
        VSU.uncheckedPadTo_eq hb (by omega) (by rw [e2]; omega), Option.bind_some, e1, e2, h1, Option.bind_some]
      rfl
    · intro i hi
      rw [h3 _ (by omega)]
      simp only
      rw [if_pos (by omega), Nat.add_sub_cancel_left]
      exact hmem.1 i hi
    · intro i hi
      rw [h3 i (by omega)]
      simp only
      rw [if_neg (by omega)]

/-- The vector between the two steps: the elements are where they belong with the alignment `b`. -/
structure Moved (c : Cfg) (u v : UVec T β) (xs : List (Val T β)) (b : Nat) : Prop where
  elems : v.elems = infosFrom id (padTo b) 0 xs
  mem : MemAt v.heap.mem (padTo b) 0 xs
  ptr : v.ptr = u.ptr
  byteCap : v.byteCap = u.byteCap
  elemsCap : v.elemsCap = u.elemsCap
  align : v.align = u.align
  drops : v.drops = u.drops
  block : v.heap.block = u.heap.block
  leaks : v.heap.leaks = u.heap.leaks

/-- The byte capacity that the corrected shrinking aims at. -/
def roundedCap (v : UVec T β) (xs : List (Val T β)) (bytes b : Nat) : Nat :=
  max (padTo b (min bytes v.byteCap)) (totalWidth (padTo b) xs)

/-- The vector after the corrected shrinking. -/
structure Cut (c : Cfg) (env : Env (Val T β)) (v v' : UVec T β) (xs : List (Val T β)) (n bytes b : Nat) : Prop where
  holds : v'.Holds c xs
  drops : v'.drops = v.drops
  elemsCap : v'.elemsCap = n
  size : (v'.byteCap = v.byteCap ∧ v'.align = v.align ∧ env.alloc ⟨v.roundedCap xs bytes b, b⟩ = none) ∨
    (v'.byteCap = v.roundedCap xs bytes b ∧ v'.align = b)

theorem shrinkCommitRepaired_meets {u : UVec T β} (h : u.Holds c xs) {env : Env (Val T β)} (hv : env.Valid) (he : env.Exact) (bytes : Nat) {b : Nat}
    (ha' : IsAlign c b) (hale : b ≤ u.align) (helem : ∀ x ∈ xs, x.align ∣ b) (hw : Moved c u v xs b) {nr : Bool}
    (hnr : nr = true → b < u.align ∧ xs.length > 1) (hnr' : nr = false → v = u) :
    (shrinkCommitRepaired c env bytes b nr v).Meets (fun _ v' => Cut c env u v' xs u.elemsCap bytes b) (fun _ => False) False := by
  have hl := h.length
  have hcap := h.cap
  have hmax := h.capMax
  have hd : b ∣ u.align := ha'.dvd_of_le h.al hale
  have hdc : b ∣ u.byteCap := Nat.dvd_trans hd (h.capDvd trivial)
  have hmono : totalWidth (padTo b) xs ≤ totalWidth (padTo u.align) xs := totalWidth_mono_align ha'.pos h.al.pos hd xs
  have hexle : extent (padTo b) xs ≤ totalWidth (padTo b) xs := extent_le _ (le_padTo ha'.pos) xs
  have hpad : padTo b (min bytes u.byteCap) ≤ u.byteCap := padTo_least ha'.pos hdc (Nat.min_le_right _ _)
  have hlen : v.unalignedByteLen = extent (padTo b) xs := by
    unfold unalignedByteLen
    rw [hw.elems]
    exact lastEnd_infosFrom _ _ _
  unfold shrinkCommitRepaired
  rw [Exec.get_bind, hlen, hw.byteCap, hw.align]
  rw [Exec.orUb_bind (VSU.uncheckedPadTo_eq ha' (by omega) (by rw [padTo_extent ha'.pos]; omega)), padTo_extent ha'.pos,
    Exec.orUb_bind (VSU.newUnchecked_eq (by omega)), Exec.orUb_bind (VSU.uncheckedPadTo_eq ha' (by omega) (by omega))]
  have hdcap : b ∣ u.roundedCap xs bytes b := by
    unfold roundedCap
    rcases Nat.le_total (padTo b (min bytes u.byteCap)) (totalWidth (padTo b) xs) with h1 | h1
    · rw [Nat.max_eq_right h1]; exact dvd_totalWidth xs
    · rw [Nat.max_eq_left h1]; exact dvd_padTo _ _
  rw [show max (padTo b (min bytes u.byteCap)) (totalWidth (padTo b) xs) = u.roundedCap xs bytes b from rfl]
  have hC : max (padTo b (min bytes u.byteCap)) (totalWidth (padTo b) xs) = u.roundedCap xs bytes b := rfl
  suffices H : ∀ cap, cap = u.roundedCap xs bytes b →
      ((Exec.debugAssert c.debug (cap ≤ u.byteCap) >>= fun _ =>
        if cap < u.byteCap ∨ b < u.align then do
          let oldLayout ← Exec.orUb (layoutUnchecked c u.byteCap u.align)
          if cap > 0 then do
            let go ← shrinkBlock c env oldLayout cap b nr
            if go then Exec.modify (fun v => { v with align := b })
            else pure ()
          else do
            releaseAll oldLayout b
            Exec.modify (fun v => { v with align := b })
        else pure () : Exec (UVec T β) Unit) v).Meets (fun _ v' => Cut c env u v' xs u.elemsCap bytes b) (fun _ => False) False from H _ rfl
  intro cap hcapEq
  rw [← hcapEq] at hC hdcap
  have hscle : cap ≤ u.byteCap := by omega
  have htw : totalWidth (padTo b) xs ≤ cap := by omega
  rw [Exec.debugAssert_bind hscle]
  have hb1 := ha'.pos
  have hroom := h.room
  have hblkv : BlockOk v.heap u.ptr u.byteCap u.align := h.block.mem_eq hw.block
  have hstores : ∀ w : UVec T β, w.elems = v.elems → w.elemsCap = v.elemsCap → w.align = b → totalWidth (padTo b) xs ≤ w.byteCap → b ∣ w.byteCap →
      w.byteCap + (b - 1) ≤ c.isizeMax → (∀ i, i < totalWidth (padTo b) xs → w.heap.mem i = v.heap.mem i) →
      BlockOk w.heap w.ptr w.byteCap b → w.heap.leaks = 0 → w.Holds c xs := by
    intro w w1 w2 w3 h1 h1' h2 h3 h4 h5
    refine ⟨h.wf, by rw [w3]; exact ha', by rw [w3]; exact helem, by rw [w3, w1]; exact hw.elems,
      by rw [w2, hw.elemsCap]; exact h.recs, by rw [w3]; exact h1, fun _ => by rw [w3]; exact h1', by rw [w3]; exact h2, ?_,
      by rw [w3]; exact h4, h5⟩
    rw [w3]
    refine hw.mem.congr (fun x hx => by rw [(h.wf x hx).bytes_len]; exact le_padTo ha'.pos _) ?_
    intro i hi
    simpa using h3 i hi
  by_cases hdo : cap < u.byteCap ∨ b < u.align
  rotate_left
  · rw [if_neg hdo]
    have hbe : u.align = b := by omega
    refine ⟨hstores v rfl rfl (hw.align.trans hbe) (by rw [hw.byteCap]; omega) (by rw [hw.byteCap]; exact hdc) (by rw [hw.byteCap]; omega)
      (fun _ _ => rfl) (by rw [hw.ptr, hw.byteCap, ← hbe]; exact hblkv) (hw.leaks.trans h.leaks), hw.drops, hw.elemsCap,
      .inr ⟨by rw [hw.byteCap]; omega, hw.align.trans hbe⟩⟩
  rw [if_pos hdo]
  rw [Exec.orUb_bind (layoutUnchecked_eq h.al hroom)]
  by_cases h0 : cap > 0
  rotate_left
  · rw [if_neg h0]
    unfold releaseAll
    rw [Exec.bind_assoc_apply, Exec.get_bind, hw.byteCap]
    by_cases hc0 : u.byteCap > 0
    · rw [if_pos hc0, Exec.bind_assoc_apply]
      rw [Exec.orUb_bind (show v.heap.deallocate v.ptr ⟨u.byteCap, u.align⟩ = some { v.heap with block := none } by
        unfold Heap.deallocate; rw [if_neg (by simp; omega), hw.ptr, if_pos (hblkv.fits hc0)]), Exec.set_bind]
      refine ⟨hstores _ rfl rfl rfl (by dsimp only; omega) (Nat.dvd_zero _) (by dsimp only; omega) (fun _ _ => rfl)
        ⟨hb1, Nat.dvd_refl _, rfl⟩ (hw.leaks.trans h.leaks), hw.drops, hw.elemsCap, .inr ⟨?_, rfl⟩⟩
      show 0 = _; omega
    · rw [if_neg hc0, Exec.set_bind]
      have hz : u.byteCap = 0 := by omega
      have hbl := hblkv
      rw [hz] at hbl
      refine ⟨hstores _ rfl rfl rfl (by dsimp only; omega) hdc (by dsimp only; omega) (fun _ _ => rfl)
        ⟨hb1, Nat.dvd_refl _, ?_⟩ (hw.leaks.trans h.leaks), hw.drops, hw.elemsCap, .inr ⟨?_, rfl⟩⟩
      · dsimp only
        rw [hbl.none_of_zero]; exact hz
      · show u.byteCap = _; omega
  rw [if_pos h0]
  have hfits := hblkv.fits (show 0 < u.byteCap by omega)
  have hsh : v.heap.shrink env v.ptr ⟨u.byteCap, u.align⟩ ⟨cap, b⟩ =
      match env.alloc ⟨cap, b⟩ with
      | none => some none
      | some r => some (some (Heap.fresh (fun i => if i < cap then v.heap.mem i else default) ⟨cap, b⟩ r v.heap.leaks, r.1, cap + r.2)) := by
    unfold Heap.shrink
    rw [hw.ptr, if_pos ⟨hfits, hscle⟩]
    rfl
  cases hall : env.alloc ⟨cap, b⟩ with
  | none =>
    rw [hall] at hsh
    cases nr with
    | true =>
      obtain ⟨hc1, hc2⟩ := hnr rfl
      obtain ⟨mem', hrun, hmem'⟩ := realignUp_spec (v := { v with align := b }) (xs := xs) h.al hc1
        (by dsimp only; rw [hw.elems, infosFrom_length]; exact hc2) h.wf ha' hw.elems hw.mem h.total_le
        (by have := hblkv.span; dsimp only; rw [hw.ptr]; omega)
      have hrun' : realigner c b v = .ok () { v with elems := infosFrom id (padTo u.align) 0 xs, heap := { v.heap with mem := mem' } } := by
        unfold realigner
        rw [Exec.get_bind, Exec.modify_bind, hw.align, Exec.bind_ok hrun]
        show Res.ok _ _ = _
        rw [← hw.align]
      have hblk : shrinkBlock c env ⟨u.byteCap, u.align⟩ cap b true v =
          .ok false { v with elems := infosFrom id (padTo u.align) 0 xs, heap := { v.heap with mem := mem' } } := by
        unfold shrinkBlock
        rw [Exec.orUb_bind (layoutUnchecked_eq ha' (by omega)), Exec.get_bind, Exec.orUb_bind hsh]
        dsimp only
        rw [if_pos rfl, Exec.bind_ok hrun']
        rfl
      rw [Exec.bind_ok hblk]
      refine ⟨⟨h.wf, ?_, ?_, ?_, ?_, ?_, fun _ => ?_, ?_, ?_, ?_, hw.leaks.trans h.leaks⟩, hw.drops, hw.elemsCap,
        .inl ⟨hw.byteCap, hw.align, by rw [← hcapEq]; exact hall⟩⟩ <;> dsimp only
      · rw [hw.align]; exact h.al
      · rw [hw.align]; exact h.elemAl
      · rw [hw.align]
      · rw [hw.elemsCap]; exact h.recs
      · rw [hw.align, hw.byteCap]; exact h.cap
      · rw [hw.align, hw.byteCap]; exact h.capDvd trivial
      · rw [hw.align, hw.byteCap]; exact h.room
      · rw [hw.align]; exact hmem'
      · rw [hw.align, hw.byteCap, hw.ptr]; exact hblkv.mem_eq rfl
    | false =>
      have hblk : shrinkBlock c env ⟨u.byteCap, u.align⟩ cap b false v = .ok false v := by
        unfold shrinkBlock
        rw [Exec.orUb_bind (layoutUnchecked_eq ha' (by omega)), Exec.get_bind, Exec.orUb_bind hsh]
        rfl
      rw [Exec.bind_ok hblk]
      rw [hnr' rfl]
      exact ⟨h, rfl, rfl, .inl ⟨rfl, rfl, by rw [← hcapEq]; exact hall⟩⟩
  | some r =>
    obtain ⟨p, x⟩ := r
    have hvv := hv _ _ _ hb1 hall
    obtain rfl : x = 0 := he _ _ _ hall
    have hb1' := ha'.sub_one_le
    rw [hall] at hsh
    have hblk : shrinkBlock c env ⟨u.byteCap, u.align⟩ cap b nr v =
        .ok true { v with byteCap := cap, ptr := p, heap := Heap.fresh (fun i => if i < cap then v.heap.mem i else default) ⟨cap, b⟩ (p, 0) v.heap.leaks } := by
      unfold shrinkBlock
      rw [Exec.orUb_bind (layoutUnchecked_eq ha' (by omega)), Exec.get_bind, Exec.orUb_bind hsh]
      dsimp only
      rw [Exec.orUb_bind (VSU.newSquishedTo_eq ha'), Nat.add_zero, Nat.min_eq_left (by omega)]
      rfl
    rw [Exec.bind_ok hblk, if_pos rfl]
    refine ⟨hstores _ rfl rfl rfl (by dsimp only; omega) hdcap (by dsimp only; omega) (fun i hi => ?_) ?_ (hw.leaks.trans h.leaks), hw.drops,
      hw.elemsCap, .inr ⟨hcapEq, rfl⟩⟩
    · show (if i < cap then v.heap.mem i else default) = _
      rw [if_pos (by omega)]
    · exact ⟨hvv.1, hvv.2, h0, rfl, rfl, Nat.le_refl _, by dsimp only [Heap.fresh]; omega⟩

/-- The corrected shrinking. -/
theorem shrinkToRepaired_meets (h : v.Holds c xs) {env : Env (Val T β)} (hv : env.Valid) (he : env.Exact) (n bytes : Nat) {al : Nat}
    (hal : IsAlign c al) :
    (shrinkToRepaired c env n bytes al v).Meets
      (fun _ v' => Cut c env v v' xs (max xs.length (min v.elemsCap n)) bytes (v.shrunkAlign xs al)) (fun _ => False)
      (env.infoShrink = false ∧ max xs.length (min v.elemsCap n) < v.elemsCap) := by
  unfold shrinkToRepaired
  refine (shrinkInfos_meets h env n).bind ?_
  rintro _ w rfl
  have h' : UVec.Holds c { v with elemsCap := max xs.length (min v.elemsCap n) } xs := h.withElemsCap (n := max xs.length (min v.elemsCap n)) (by omega)
  have ha' := shrunkAlign_isAlign h hal
  have hale := shrunkAlign_le h al
  have helem : ∀ x ∈ xs, x.align ∣ v.shrunkAlign xs al := by
    intro x hx
    have h1 := le_maxAlign hx
    exact IsAlign.dvd_of_le (h.wf x hx).align_pow ha' (by unfold shrunkAlign; omega)
  have hd : v.shrunkAlign xs al ∣ v.align := ha'.dvd_of_le h.al hale
  rw [Exec.get_bind, Exec.orUb_bind (maxAlignOfElems_eq h')]
  dsimp only
  rw [show max (min al v.align) (maxAlign xs) = v.shrunkAlign xs al from rfl, Exec.debugAssert_bind hale]
  have fin : ∀ w', Cut c env { v with elemsCap := max xs.length (min v.elemsCap n) } w' xs (max xs.length (min v.elemsCap n)) bytes (v.shrunkAlign xs al) →
      Cut c env v w' xs (max xs.length (min v.elemsCap n)) bytes (v.shrunkAlign xs al) := fun w' hw => ⟨hw.holds, hw.drops, hw.elemsCap, hw.size⟩
  split
  · next hc =>
    have hc : v.shrunkAlign xs al < v.align ∧ xs.length > 1 := ⟨hc.1, h.len_eq ▸ hc.2⟩
    obtain ⟨mem', h1, h2, _⟩ := realignDownLoopRepaired_eq (p := v.ptr) h.al ha' hd xs 0 0 v.heap (Nat.dvd_zero _) (Nat.dvd_zero _) (Nat.le_refl _)
      (fun x hx => (h.wf x hx).bytes_len) (by have := h.total_le; omega) (by have := h.span; have := h.cap; omega) h.mem
    have hdown : realignDownRepaired c (v.shrunkAlign xs al) { v with elemsCap := max xs.length (min v.elemsCap n) } =
        .ok () { v with
          elemsCap := max xs.length (min v.elemsCap n)
          elems := infosFrom id (padTo (v.shrunkAlign xs al)) 0 xs
          heap := { v.heap with mem := mem' } } := by
      unfold realignDownRepaired
      rw [Exec.get_bind, Exec.debugAssert_bind (by exact ⟨by rw [h'.len_eq]; exact hc.2, hc.1⟩)]
      rw [Exec.orUb_bind (a := (infosFrom id (padTo (v.shrunkAlign xs al)) 0 xs, { v.heap with mem := mem' }))
        (by dsimp only; rw [h.infos]; exact h1)]
      rfl
    rw [Exec.bind_ok hdown]
    refine Res.Meets.mono (shrinkCommitRepaired_meets (nr := true) h' hv he bytes ha' hale helem ?_ (fun _ => hc) (fun h => Bool.noConfusion h))
      (fun _ w' hw => fin w' hw) (fun _ h => h) (fun h => h.elim)
    exact ⟨rfl, h2, rfl, rfl, rfl, rfl, rfl, rfl, rfl⟩
  · next hc =>
    have hw : Moved c { v with elemsCap := max xs.length (min v.elemsCap n) } { v with elemsCap := max xs.length (min v.elemsCap n) } xs
        (v.shrunkAlign xs al) := by
      by_cases hlt : v.shrunkAlign xs al < v.align
      · have hl : ¬ xs.length > 1 := fun hl => hc ⟨hlt, by rw [h'.len_eq]; exact hl⟩
        have hok : ∀ x ∈ xs.dropLast, padTo v.align x.size = padTo (v.shrunkAlign xs al) x.size := by
          intro x hx
          rw [List.eq_nil_of_length_eq_zero (l := xs.dropLast) (by rw [List.length_dropLast]; omega)] at hx
          cases hx
        exact ⟨h.infos.trans (infosFrom_congr hok), memAt_congr_width hok h.mem, rfl, rfl, rfl, rfl, rfl, rfl, rfl⟩
      · have e : v.shrunkAlign xs al = v.align := by omega
        rw [e]
        exact ⟨h.infos, h.mem, rfl, rfl, rfl, rfl, rfl, rfl, rfl⟩
    exact (shrinkCommitRepaired_meets h' hv he bytes ha' hale helem hw (by simp) (fun _ => rfl)).mono (fun _ w' hw => fin w' hw) (fun _ h => h)
      (fun h => h.elim)

end UVec

theorem Shrinking.run_repaired {T : UTy} {β : Type} [Inhabited β] {c : Cfg} (env : Env (Val T β)) (s : Shrinking)
    (hs : IsAlign c (s.align c)) (v : UVec T β) :
    s.run c (unalignedShrinkingP c T) env v = UVec.shrinkToRepaired c env s.slots (s.bytes c) (s.align c) v := by
  have key : ∀ n b a, IsAlign c a →
      Api.shrinkCapacityBytesAlignTo (unalignedShrinkingP (β := β) c T) env n b a v = UVec.shrinkToRepaired c env n b a v := by
    intro n b a ha
    unfold Api.shrinkCapacityBytesAlignTo Api.toAlign
    rw [show (unalignedShrinkingP (β := β) c T).alignNew a = _ from validAlign_new_eq ha]
    rfl
  cases s with
  | toFit => exact key _ _ _ hs
  | elems n => exact key _ _ _ hs
  | capBytes n b => exact key _ _ _ hs
  | capBytesAlign n b al => exact key _ _ _ hs

end Verif
