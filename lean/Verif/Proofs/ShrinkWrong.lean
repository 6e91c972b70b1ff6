import Verif.Proofs.ShrinkExact
import Verif.Proofs.Misplaced

/-!
# Lowering the alignment of a vector: what happens to the element behind the first one whose padding changes
-/

namespace Verif

theorem VSU.uncheckedSub_some {c : Cfg} {x y z : Nat} (h : VSU.uncheckedSub c x y = some z) : y ≤ x ∧ z = x - y := by
  unfold VSU.uncheckedSub Verif.uncheckedSub at h
  by_cases hle : y ≤ x
  · rw [if_pos hle] at h
    simp only [Option.bind_eq_bind, Option.bind_some] at h
    unfold VSU.newUnchecked at h
    split at h
    · injection h with h; exact ⟨hle, h.symm⟩
    · cases h
  · rw [if_neg hle] at h; cases h

theorem mapM_some_get {α γ : Type} {f : α → Option γ} : ∀ (l : List α) {ys : List γ}, l.mapM f = some ys →
    ∀ i (hi : i < l.length) (hy : i < ys.length), f l[i] = some ys[i] := by
  intro l
  induction l with
  | nil => intro ys _ i hi; exact absurd hi (Nat.not_lt_zero _)
  | cons x l ih =>
    intro ys h i hi hy
    rw [List.mapM_cons] at h
    simp only [Option.pure_def, Option.bind_eq_bind, Option.bind_eq_some_iff] at h
    obtain ⟨y, h1, ys', h2, h3⟩ := h
    injection h3 with h3
    subst h3
    cases i with
    | zero => exact h1
    | succ i => exact ih h2 i (Nat.lt_of_succ_lt_succ hi) (Nat.lt_of_succ_lt_succ hy)

theorem mapM_some_length {α γ : Type} {f : α → Option γ} : ∀ (l : List α) {ys : List γ}, l.mapM f = some ys → ys.length = l.length := by
  intro l
  induction l with
  | nil => intro ys h; injection h with h; subst h; rfl
  | cons x l ih =>
    intro ys h
    rw [List.mapM_cons] at h
    simp only [Option.pure_def, Option.bind_eq_bind, Option.bind_eq_some_iff] at h
    obtain ⟨y, h1, ys', h2, h3⟩ := h
    injection h3 with h3
    subst h3
    simp [ih h2]

namespace UVec
variable {T : UTy} {β : Type} {c : Cfg} {v : UVec T β} {xs : List (Val T β)} [Inhabited β]

/-- `realign_down` leaves alone everything in front of the first place it writes to. -/
theorem realignDownMove_low {a b p : Nat} (hb : IsAlign c b) {lo : Nat} :
    ∀ (ws : List (Info T.Meta × Info T.Meta)) (s : Nat) (H H' : Heap β),
      (∀ w ∈ ws, lo ≤ padTo b w.1.endOff ∧ w.1.endOff ≤ c.isizeMax ∧ padTo b w.1.endOff ≤ c.isizeMax) →
      realignDownMove c a b p ws s H = some H' →
      H'.block = H.block ∧ H'.leaks = H.leaks ∧ ∀ i < lo, H'.mem i = H.mem i := by
  intro ws
  induction ws with
  | nil =>
    intro s H H' _ h
    injection h with h
    subst h
    exact ⟨rfl, rfl, fun _ _ => rfl⟩
  | cons w ws ih =>
    obtain ⟨prev, cur⟩ := w
    intro s H H' hw h
    obtain ⟨h1, h2, h3⟩ := hw (prev, cur) (by simp)
    dsimp only at h1 h2 h3
    unfold realignDownMove at h
    simp only [Option.bind_eq_bind, Option.bind_eq_some_iff] at h
    obtain ⟨newEnd, _, newStart, e2, oldStart, _, size, _, H1, e5, _, _, _, _, _, _, s', _, h⟩ := h
    rw [VSU.uncheckedPadTo_eq hb h2 h3] at e2
    injection e2 with e2
    unfold Heap.copy at e5
    split at e5
    · injection e5 with e5
      subst e5
      obtain ⟨g1, g2, g3⟩ := ih s' _ H' (fun w hw' => hw w (List.mem_cons_of_mem _ hw')) h
      refine ⟨g1, g2, fun i hi => ?_⟩
      rw [g3 i hi]
      dsimp only
      rw [if_neg (by omega)]
    · cases e5

theorem mem_windows_infos {w : Nat → Nat} :
    ∀ (xs : List (Val T β)) (off : Nat) (p : Info T.Meta × Info T.Meta),
      p ∈ windows (infosFrom (R := T.Meta) id w off xs) →
      ∃ i, ∃ h : i + 1 < xs.length, p.1.endOff = off + totalWidth w (xs.take i) + xs[i].size := by
  intro xs
  induction xs with
  | nil => intro off p hp; cases hp
  | cons x xs ih =>
    intro off p hp
    cases xs with
    | nil => cases hp
    | cons y ys =>
      have h1 : windows (infosFrom (R := T.Meta) id w off (x :: y :: ys)) =
          (⟨x.md, off + x.size⟩, ⟨y.md, off + w x.size + y.size⟩) ::
            windows (infosFrom (R := T.Meta) id w (off + w x.size) (y :: ys)) := rfl
      rw [h1] at hp
      rcases List.mem_cons.1 hp with rfl | hp
      · exact ⟨0, by simp, by simp⟩
      · obtain ⟨i, hi, e⟩ := ih _ p hp
        refine ⟨i + 1, by simp at hi ⊢; omega, ?_⟩
        rw [e]
        simp
        omega

theorem realignDownMove_first {a b p : Nat} (ha : IsAlign c a) (hb : IsAlign c b) (hd : b ∣ a) :
    ∀ (k : Nat) (xs : List (Val T β)) (off s : Nat) (H H' : Heap β), a ∣ off →
      (hk : k + 1 < xs.length) → (∀ i (h : i < k), padTo a xs[i].size = padTo b xs[i].size) →
      (0 < k → s = 0) → (s = 0 ∨ s = padTo a xs[k].size - padTo b xs[k].size) →
      off + totalWidth (padTo a) xs ≤ c.isizeMax → off + totalWidth (padTo a) xs ≤ H.span p →
      realignDownMove c a b p (windows (infosFrom id (padTo a) off xs)) s H = some H' →
      ∃ d, d = (if k = 0 then s else padTo a xs[k].size - padTo b xs[k].size) ∧
        d ≤ off + totalWidth (padTo a) (xs.take k) + padTo b xs[k].size ∧
        H'.block = H.block ∧ H'.leaks = H.leaks ∧
        (∀ i < off + totalWidth (padTo a) (xs.take k) + padTo b xs[k].size, H'.mem i = H.mem i) ∧
        ∀ j < xs[k + 1].size, H'.mem (off + totalWidth (padTo a) (xs.take k) + padTo b xs[k].size + j) =
          H.mem (off + totalWidth (padTo a) (xs.take k) + padTo b xs[k].size - d + j) := by
  intro k
  induction k with
  | zero =>
    intro xs off s H H' hoff hk _ _ hs hm hsp hr
    match xs, hk with
    | x :: y :: ys, _ =>
      have h1 : windows (infosFrom id (padTo a) off (x :: y :: ys)) =
          (⟨x.md, off + x.size⟩, ⟨y.md, off + padTo a x.size + y.size⟩) ::
            windows (infosFrom (R := T.Meta) id (padTo a) (off + padTo a x.size) (y :: ys)) := rfl
      rw [h1] at hr
      have hoff' : a ∣ off + padTo a x.size := Nat.dvd_add hoff (dvd_padTo _ _)
      have hboff : b ∣ off := Nat.dvd_trans hd hoff
      have hboff' : b ∣ off + padTo a x.size := Nat.dvd_trans hd hoff'
      have hpa := le_padTo ha.pos x.size
      have hpb := le_padTo hb.pos x.size
      have hpy := le_padTo ha.pos y.size
      have hab := padTo_least hb.pos (Nat.dvd_trans hd (dvd_padTo a x.size)) hpa
      have hm' : off + (padTo a x.size + (padTo a y.size + totalWidth (padTo a) ys)) ≤ c.isizeMax := by
        simpa [totalWidth_cons] using hm
      have hsp' : off + (padTo a x.size + (padTo a y.size + totalWidth (padTo a) ys)) ≤ H.span p := by
        simpa [totalWidth_cons] using hsp
      have e1 : padTo b (off + x.size) = off + padTo b x.size := padTo_add hb.pos hboff _
      simp only [List.getElem_cons_zero] at hs
      unfold realignDownMove at hr
      simp only [Option.bind_eq_bind, Option.bind_eq_some_iff] at hr
      obtain ⟨newEnd, f1, newStart, f2, oldStart, f3, size, f4, H1, f5, _, _, _, _, _, _, s', _, hr⟩ := hr
      rw [VSU.uncheckedPadTo_eq hb (by omega) (by rw [e1]; omega), e1] at f2
      injection f2 with f2
      subst f2
      obtain ⟨g1, rfl⟩ := VSU.uncheckedSub_some f1
      obtain ⟨g3, rfl⟩ := VSU.uncheckedSub_some f3
      obtain ⟨g4, rfl⟩ := VSU.uncheckedSub_some f4
      have hlow := realignDownMove_low (lo := off + padTo a x.size + y.size) hb _ _ _ _ (fun w hw => by
        obtain ⟨i, hi, e⟩ := mem_windows_infos _ _ _ hw
        have t1 := totalWidth_take_succ (padTo a) (y :: ys) i (by omega)
        have t2 := totalWidth_take_le (padTo a) (y :: ys) (i + 1)
        have t3 := le_padTo ha.pos ((y :: ys)[i]'(by omega)).size
        have t4 := le_padTo hb.pos ((y :: ys)[i]'(by omega)).size
        have t5 := padTo_least hb.pos (Nat.dvd_trans hd (dvd_padTo a ((y :: ys)[i]'(by omega)).size)) t3
        have t6 : b ∣ off + padTo a x.size + totalWidth (padTo a) ((y :: ys).take i) :=
          Nat.dvd_add hboff' (Nat.dvd_trans hd (dvd_totalWidth _))
        have t7 : y.size ≤ totalWidth (padTo a) ((y :: ys).take i) + ((y :: ys)[i]'(by omega)).size := by
          cases i with
          | zero => simp
          | succ i => simp only [List.take_succ_cons, totalWidth_cons]; omega
        simp only [totalWidth_cons] at t2
        rw [e, padTo_add hb.pos t6]
        omega) hr
      refine ⟨s, by simp, by simpa using g3, ?_⟩
      unfold Heap.copy at f5
      split at f5
      · injection f5 with f5
        subst f5
        obtain ⟨l1, l2, l3⟩ := hlow
        simp only [List.take_zero, totalWidth_nil, Nat.add_zero, List.getElem_cons_zero, List.getElem_cons_succ]
        refine ⟨l1, l2, fun i hi => ?_, fun j hj => ?_⟩
        · rw [l3 i (by omega)]
          dsimp only
          rw [if_neg (by omega)]
        · rw [l3 _ (by omega)]
          dsimp only
          rw [if_pos (by omega)]
          congr 1
          omega
      · cases f5
  | succ k ih =>
    intro xs off s H H' hoff hk hp hs0 _ hm hsp hr
    have hs0 := hs0 (by omega)
    subst hs0
    match xs, hk with
    | x :: y :: ys, hk =>
      have h1 : windows (infosFrom id (padTo a) off (x :: y :: ys)) =
          (⟨x.md, off + x.size⟩, ⟨y.md, off + padTo a x.size + y.size⟩) ::
            windows (infosFrom (R := T.Meta) id (padTo a) (off + padTo a x.size) (y :: ys)) := rfl
      rw [h1] at hr
      have hoff' : a ∣ off + padTo a x.size := Nat.dvd_add hoff (dvd_padTo _ _)
      have hboff : b ∣ off := Nat.dvd_trans hd hoff
      have hboff' : b ∣ off + padTo a x.size := Nat.dvd_trans hd hoff'
      have hx : padTo a x.size = padTo b x.size := hp 0 (by omega)
      have hpa := le_padTo ha.pos x.size
      have hpy := le_padTo ha.pos y.size
      have hyb : padTo b y.size ≤ padTo a y.size := padTo_least hb.pos (Nat.dvd_trans hd (dvd_padTo _ _)) hpy
      have hm' : off + (padTo a x.size + (padTo a y.size + totalWidth (padTo a) ys)) ≤ c.isizeMax := by
        simpa [totalWidth_cons] using hm
      have hsp' : off + (padTo a x.size + (padTo a y.size + totalWidth (padTo a) ys)) ≤ H.span p := by
        simpa [totalWidth_cons] using hsp
      have e1 : padTo b (off + x.size) = off + padTo a x.size := by rw [padTo_add hb.pos hboff, hx]
      have e2 : padTo a (off + padTo a x.size + y.size) = off + padTo a x.size + padTo a y.size := padTo_add ha.pos hoff' _
      have e3 : padTo b (off + padTo a x.size + y.size) = off + padTo a x.size + padTo b y.size := padTo_add hb.pos hboff' _
      unfold realignDownMove at hr
      simp only [Option.bind_eq_bind] at hr
      rw [VSU.uncheckedSub_eq (by omega) (by omega), Option.bind_some, VSU.uncheckedPadTo_eq hb (by omega) (by rw [e1]; omega),
        Option.bind_some, e1, VSU.uncheckedSub_eq (by omega) (by omega), Option.bind_some, Nat.sub_zero, Nat.sub_zero,
        VSU.uncheckedSub_eq (by omega) (by omega), Option.bind_some, copy_self (by omega), Option.bind_some,
        VSU.uncheckedPadTo_eq ha (by omega) (by rw [e2]; omega), Option.bind_some,
        VSU.uncheckedPadTo_eq hb (by omega) (by rw [e3]; omega), Option.bind_some, e2, e3,
        VSU.uncheckedSub_eq (by omega) (by omega), Option.bind_some, VSU.uncheckedAdd_eq (by omega), Option.bind_some] at hr
      have hd' : off + padTo a x.size + padTo a y.size - (off + padTo a x.size + padTo b y.size) = padTo a y.size - padTo b y.size := by
        omega
      rw [hd', Nat.zero_add] at hr
      have hlast : 0 < k → padTo a y.size = padTo b y.size := fun hk0 => hp 1 (by omega)
      obtain ⟨d, g1, g2, g3, g4, g5, g6⟩ := ih (y :: ys) _ _ H H' hoff' (by simpa using hk) (fun i hi => hp (i + 1) (by omega))
        (fun hk0 => by rw [hlast hk0, Nat.sub_self]) (by
          cases k with
          | zero => exact .inr rfl
          | succ k => exact .inl (by rw [hlast (by omega), Nat.sub_self])) (by simp only [totalWidth_cons]; omega)
        (by simp only [totalWidth_cons]; omega) hr
      have e4 : off + totalWidth (padTo a) ((x :: y :: ys).take (k + 1)) = off + padTo a x.size + totalWidth (padTo a) ((y :: ys).take k) := by
        simp only [List.take_succ_cons, totalWidth_cons]; omega
      rw [e4]
      simp only [List.getElem_cons_succ]
      refine ⟨d, ?_, g2, g3, g4, g5, g6⟩
      rw [g1, if_neg (Nat.succ_ne_zero k)]
      cases k with
      | zero => rfl
      | succ k => rfl

/-- If lowering the alignment returns, then the block was cut, after the loop of `realign_down` ran over its memory. -/
theorem shrinkTo_cut (h : v.Holds c xs) {env : Env (Val T β)} (he : env.Exact) (hi : env.infoShrink = true)
    (n bytes : Nat) {al : Nat} (hal : IsAlign c al) (hlow : v.shrunkAlign xs al < v.align) (hlen : 1 < xs.length)
    (hpos : 0 < extent (padTo v.align) xs) {p e : Nat}
    (hg : env.alloc ⟨max (min bytes v.byteCap) (padTo (v.shrunkAlign xs al) (extent (padTo v.align) xs)), v.shrunkAlign xs al⟩ = some (p, e))
    {u : Unit} {v' : UVec T β} (hr : shrinkTo c env n bytes al v = .ok u v') :
    ∃ H, realignDownMove c v.align (v.shrunkAlign xs al) v.ptr (windows v.elems) 0 v.heap = some H ∧
      (H.block = v.heap.block → v' = cut { v with heap := H } (max xs.length (min v.elemsCap n))
        (max (min bytes v.byteCap) (padTo (v.shrunkAlign xs al) (extent (padTo v.align) xs))) (v.shrunkAlign xs al) p) := by
  have ha' := shrunkAlign_isAlign h hal
  have hale := shrunkAlign_le h al
  have hd : v.shrunkAlign xs al ∣ v.align := ha'.dvd_of_le h.al hale
  have hcap := h.cap
  have hmax := h.capMax
  have hl := h.length
  have hexle : extent (padTo v.align) xs ≤ totalWidth (padTo v.align) xs := extent_le _ (le_padTo h.al.pos) xs
  have hex := le_padTo ha'.pos (extent (padTo v.align) xs)
  have hinf : shrinkInfos env n v = .ok () { v with elemsCap := max xs.length (min v.elemsCap n) } := by
    have := shrinkInfos_meets h env n
    cases hr : shrinkInfos env n v with
    | ok u w => rw [hr] at this; rw [this]
    | panic w => rw [hr] at this; exact this.elim
    | abort => rw [hr] at this; have := this.1; rw [hi] at this; exact absurd this (by decide)
    | ub => rw [hr] at this; exact this.elim
  have h' := h.withElemsCap (n := max xs.length (min v.elemsCap n)) (by omega)
  have hpl : padTo (v.shrunkAlign xs al) (extent (padTo v.align) xs) ≤ v.byteCap :=
    Nat.le_trans (padTo_least ha'.pos (Nat.dvd_trans hd (dvd_totalWidth _)) hexle) hcap
  unfold shrinkTo at hr
  rw [Exec.bind_ok hinf, Exec.get_bind, Exec.orUb_bind (maxAlignOfElems_eq h')] at hr
  dsimp only at hr
  rw [show max (min al v.align) (maxAlign xs) = v.shrunkAlign xs al from rfl, Exec.debugAssert_bind hale,
    if_pos ⟨hlow, by show v.elems.length > 1; omega⟩] at hr
  generalize hb : v.shrunkAlign xs al = b at *
  cases hH : realignDownMove c v.align b v.ptr (windows v.elems) 0 v.heap with
  | none =>
    have hdown : realignDown c b { v with elemsCap := max xs.length (min v.elemsCap n) } = .ub := by
      unfold realignDown
      rw [Exec.get_bind, Exec.debugAssert_bind (by exact ⟨by show v.elems.length > 1; omega, hlow⟩)]
      refine Exec.bind_ub ?_
      dsimp only
      rw [hH]
      rfl
    rw [Exec.bind_ub hdown] at hr
    cases hr
  | some H =>
    refine ⟨H, rfl, fun hblock => ?_⟩
    have hdown : realignDown c b { v with elemsCap := max xs.length (min v.elemsCap n) } =
        .ok () { v with elemsCap := max xs.length (min v.elemsCap n), heap := H } := by
      unfold realignDown
      rw [Exec.get_bind, Exec.debugAssert_bind (by exact ⟨by show v.elems.length > 1; omega, hlow⟩)]
      rw [Exec.orUb_bind (a := H) hH]
      rfl
    rw [Exec.bind_ok hdown] at hr
    have hub : UVec.unalignedByteLen { v with elemsCap := max xs.length (min v.elemsCap n), heap := H } = extent (padTo v.align) xs :=
      (show _ = v.unalignedByteLen from rfl).trans (unalignedByteLen_eq h)
    unfold shrinkCommit at hr
    rw [Exec.get_bind, hub, Exec.orUb_bind (VSU.uncheckedPadTo_eq ha' (by omega) (by omega)),
      Exec.orUb_bind (VSU.newUnchecked_eq (by dsimp only; omega))] at hr
    dsimp only at hr
    generalize hC : max (min bytes v.byteCap) (padTo b (extent (padTo v.align) xs)) = cap at *
    have hscle : cap ≤ v.byteCap := by omega
    rw [Exec.debugAssert_bind (by omega), if_pos (.inr hlow)] at hr
    have hroom := h.room
    rw [Exec.orUb_bind (layoutUnchecked_eq h.al hroom), if_pos (by omega)] at hr
    have hfits := h.block.fits (show 0 < v.byteCap by omega)
    have hx0 := he _ _ _ hg
    subst hx0
    have hfits' : H.fits v.ptr ⟨v.byteCap, v.align⟩ := by
      unfold Heap.fits at hfits ⊢
      rw [hblock]
      exact hfits
    have hsh : H.shrink env v.ptr ⟨v.byteCap, v.align⟩ ⟨cap, b⟩ =
        some (some (Heap.fresh (fun i => if i < cap then H.mem i else default) ⟨cap, b⟩ (p, 0) H.leaks, p, cap + 0)) := by
      unfold Heap.shrink
      rw [if_pos ⟨hfits', hscle⟩, hg]
    have hblk : shrinkBlock c env ⟨v.byteCap, v.align⟩ cap b true { v with elemsCap := max xs.length (min v.elemsCap n), heap := H } =
        .ok true { v with elemsCap := max xs.length (min v.elemsCap n), byteCap := cap, ptr := p, heap := Heap.fresh (fun i => if i < cap then H.mem i else default) ⟨cap, b⟩ (p, 0) H.leaks } := by
      unfold shrinkBlock
      rw [Exec.orUb_bind (layoutUnchecked_eq ha' (by have := ha'.pos; omega)), Exec.get_bind, Exec.orUb_bind hsh]
      dsimp only
      rw [Nat.add_zero, Exec.orUb_bind (VSU.newSquishedTo_eq ha'), Nat.min_eq_left (by omega)]
      rfl
    rw [Exec.bind_ok hblk, if_pos rfl] at hr
    unfold Exec.modify at hr
    injection hr with _ hr
    rw [← hr]
    rfl

/-- The place where the element with number `i` is looked for, if the end offsets are those for alignment `a` but the vector
believes that its alignment is `b`. -/
def lookedUp (a b : Nat) (xs : List (Val T β)) : Nat → Nat
  | 0 => 0
  | k + 1 => totalWidth (padTo a) (xs.take k) + padTo b (xs[k]?.elim 0 Val.size)

/-- The element with number `i`, looked up after the block was cut and its bytes rewritten. -/
theorem cut_get (h : v.Holds c xs) (H : Heap β) (n : Nat) {cap b p : Nat} (hb : IsAlign c b) (hp : b ∣ p) (hd : b ∣ v.align)
    (helem : ∀ x ∈ xs, x.align ∣ b) (hcap : extent (padTo v.align) xs ≤ cap) {i : Nat} (hi : i < xs.length) {off : Nat}
    (hoff : off = lookedUp v.align b xs i) :
    off + xs[i].size ≤ cap ∧
      (cut { v with heap := H } n cap b p).getUnchecked c i = some ⟨p, off, xs[i].md⟩ ∧
      Ref.read (cut { v with heap := H } n cap b p).heap ⟨p, off, xs[i].md⟩ =
        ⟨xs[i].md, (List.range xs[i].size).map (fun j => H.mem (off + j))⟩ := by
  have hcap' := h.cap
  have hmax := h.capMax
  have hex := elem_le_extent (padTo v.align) (le_padTo h.al.pos) xs i hi
  have hstart : startOffset c (cut { v with heap := H } n cap b p) i = some off ∧ b ∣ off ∧
      off ≤ totalWidth (padTo v.align) (xs.take i) := by
    cases i with
    | zero => subst hoff; exact ⟨rfl, Nat.dvd_zero _, Nat.zero_le _⟩
    | succ k =>
      rw [lookedUp] at hoff
      have hk : k < xs.length := by omega
      rw [List.getElem?_eq_getElem hk, Option.elim_some] at hoff
      have hbt : b ∣ totalWidth (padTo v.align) (xs.take k) := Nat.dvd_trans hd (dvd_totalWidth _)
      have h1 := totalWidth_take_succ (padTo v.align) xs k hk
      have h2 := totalWidth_take_le (padTo v.align) xs (k + 1)
      have h3 := padTo_least hb.pos (Nat.dvd_trans hd (dvd_padTo v.align xs[k].size)) (le_padTo h.al.pos xs[k].size)
      have h4 := le_padTo hb.pos xs[k].size
      refine ⟨?_, hoff ▸ Nat.dvd_add hbt (dvd_padTo _ _), by omega⟩
      rw [startOffset]
      rw [show (cut { v with heap := H } n cap b p).elems = _ from h.infos, infosFrom_getElem?, List.getElem?_eq_getElem hk]
      simp only [Option.map_some, Nat.zero_add]
      rw [show (cut { v with heap := H } n cap b p).align = b from rfl,
        VSU.uncheckedPadTo_eq hb (by omega) (by rw [padTo_add hb.pos hbt]; omega), padTo_add hb.pos hbt, hoff]
  obtain ⟨hs, hdv, hle⟩ := hstart
  have h5 : off + xs[i].size ≤ cap := by omega
  have hspan : (cut { v with heap := H } n cap b p).heap.span p = cap := by
    unfold cut Heap.fresh Heap.span
    simp
  refine ⟨h5, ?_, ?_⟩
  · unfold getUnchecked
    rw [hs, show (cut { v with heap := H } n cap b p).elems = _ from h.infos, infosFrom_getElem?, List.getElem?_eq_getElem hi]
    simp only [Option.bind_eq_bind, Option.bind_some, Option.map_some, Nat.zero_add, id]
    have h6 := extent_le _ (le_padTo h.al.pos) xs
    rw [VSU.uncheckedSub_eq (by omega) (by omega), Option.bind_some]
    exact mkRef_eq (by rw [show (cut { v with heap := H } n cap b p).ptr = p from rfl, hspan]; exact h5)
      (Nat.dvd_trans (helem _ (List.getElem_mem hi)) (Nat.dvd_add hp hdv))
  · unfold Ref.read Heap.bytesAt
    congr 1
    refine List.map_congr_left (fun j hj => ?_)
    rw [List.mem_range] at hj
    have hj : j < xs[i].size := hj
    show (if off + j < cap then H.mem (off + j) else default) = _
    rw [if_pos (by omega)]

/-- The elements as they are read from the given bytes. -/
def reread (mem : Nat → β) (w : Nat → Nat) : Nat → List (Val T β) → List (Val T β)
  | _, [] => []
  | off, x :: xs => ⟨x.md, (List.range x.size).map (fun j => mem (off + j))⟩ :: reread mem w (off + w x.size) xs

theorem reread_md (mem : Nat → β) (w : Nat → Nat) : ∀ (xs : List (Val T β)) (off : Nat), (reread mem w off xs).map Val.md = xs.map Val.md := by
  intro xs
  induction xs with
  | nil => intro off; rfl
  | cons x xs ih => intro off; simp [reread, ih]

theorem reread_memAt (mem : Nat → β) (w : Nat → Nat) : ∀ (xs : List (Val T β)) (off : Nat), MemAt mem w off (reread mem w off xs) := by
  intro xs
  induction xs with
  | nil => intro off; trivial
  | cons x xs ih =>
    intro off
    refine ⟨fun j hj => ?_, ih _⟩
    simp

theorem reread_wf (mem : Nat → β) (w : Nat → Nat) : ∀ (xs : List (Val T β)) (off : Nat), (∀ x ∈ xs, x.WF c) →
    ∀ y ∈ reread mem w off xs, y.WF c ∧ ∃ x ∈ xs, y.md = x.md := by
  intro xs
  induction xs with
  | nil => intro off _ y hy; cases hy
  | cons x xs ih =>
    intro off hw y hy
    rcases List.mem_cons.1 hy with rfl | hy
    · have := hw x (by simp)
      refine ⟨⟨by simp [Val.size], this.align_pow, this.align_dvd, this.size_le⟩, x, by simp, rfl⟩
    · obtain ⟨h1, z, hz, h2⟩ := ih _ (fun z hz => hw z (List.mem_cons_of_mem _ hz)) y hy
      exact ⟨h1, z, List.mem_cons_of_mem _ hz, h2⟩

omit [Inhabited β] in
theorem totalWidth_md (w : Nat → Nat) : ∀ (xs ys : List (Val T β)), xs.map Val.md = ys.map Val.md → totalWidth w xs = totalWidth w ys := by
  intro xs
  induction xs with
  | nil => intro ys h; cases ys with
    | nil => rfl
    | cons y ys => cases h
  | cons x xs ih => intro ys h; cases ys with
    | nil => cases h
    | cons y ys =>
      simp only [List.map_cons, List.cons.injEq] at h
      rw [totalWidth_cons, totalWidth_cons, ih ys h.2, show x.size = y.size by unfold Val.size; rw [h.1]]

omit [Inhabited β] in
theorem maxAlign_md : ∀ (xs ys : List (Val T β)), xs.map Val.md = ys.map Val.md → maxAlign xs = maxAlign ys := by
  intro xs
  induction xs with
  | nil => intro ys h; cases ys with
    | nil => rfl
    | cons y ys => cases h
  | cons x xs ih => intro ys h; cases ys with
    | nil => cases h
    | cons y ys =>
      simp only [List.map_cons, List.cons.injEq] at h
      rw [maxAlign, maxAlign, ih ys h.2, show x.align = y.align by unfold Val.align; rw [h.1]]

/-- The same vector with other bytes in its memory. -/
theorem holds_reread (h : v.Holds c xs) (mem : Nat → β) :
    UVec.Holds c { v with heap := { v.heap with mem := mem } } (reread mem (padTo v.align) 0 xs) := by
  have hmd := reread_md mem (padTo v.align) xs 0
  have hwf := reread_wf mem (padTo v.align) xs 0 h.wf
  refine ⟨fun y hy => (hwf y hy).1, h.al, fun y hy => ?_, ?_, ?_, ?_, h.capDvd, h.room, reread_memAt _ _ _ _, h.block.mem_eq rfl, h.leaks⟩
  · obtain ⟨_, x, hx, e⟩ := hwf y hy
    have := h.elemAl x hx
    unfold Val.align at this ⊢
    rw [e]
    exact this
  · exact h.infos.trans (infosFrom_md _ _ _ hmd.symm)
  · have := congrArg List.length hmd
    simp only [List.length_map] at this
    rw [this]; exact h.recs
  · rw [totalWidth_md _ _ _ hmd]; exact h.cap

end UVec
end Verif
