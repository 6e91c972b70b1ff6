import Verif.Proofs.ShrinkWrong
import Verif.Props.ShrinkExact

/-!
# C18: lowering the alignment goes wrong outside the covered case, for vectors of any length
-/

namespace Verif
open Sample

section
variable {T : UTy} {β : Type} [Inhabited β] {c : Cfg}

/-- C18, what really happens when the alignment of a vector of any length is lowered and the `k`-th element is the first that
needs less padding from then on (and not the last): *if* the method returns, the elements up to the `k`-th are intact, and the
next element consists of bytes taken from in front of its old place, namely `back` bytes before the place where it is looked for.
For `k = 0` nothing was moved at all (`back = 0`); otherwise `back` is the number of bytes saved, so that the copy came
from the wrong side. -/
theorem C18_shrink_unaligned_first {v : UVec T β} {xs : List (Val T β)} (h : v.Holds c xs) {env : Env (Val T β)} (hv : env.Valid)
    (he : env.Exact) (hi : env.infoShrink = true) (hg : ∀ l, env.alloc l ≠ none) (s : Shrinking) (hs : IsAlign c (s.align c))
    {k : Nat} (hk : k + 1 < xs.length)
    (hsame : ∀ i (h : i < k), padTo v.align xs[i].size = padTo (v.shrunkAlign xs (s.align c)) xs[i].size)
    (hdiff : padTo v.align xs[k].size ≠ padTo (v.shrunkAlign xs (s.align c)) xs[k].size) {v' : UVec T β}
    (hr : s.run c (unalignedP c T) env v = .ok () v') :
    ∃ src back, back = (if k = 0 then 0 else padTo v.align xs[k].size - padTo (v.shrunkAlign xs (s.align c)) xs[k].size) ∧
      src + back = totalWidth (padTo v.align) (xs.take k) + padTo (v.shrunkAlign xs (s.align c)) xs[k].size ∧
      (∀ i (hi : i ≤ k), (v'.getUnchecked c i).map (Ref.read v'.heap) = some xs[i]) ∧
      (v'.getUnchecked c (k + 1)).map (Ref.read v'.heap) =
        some ⟨xs[k + 1].md, (List.range xs[k + 1].size).map (fun j => v.heap.mem (src + j))⟩ := by
  have ha' := UVec.shrunkAlign_isAlign h hs
  have hale := UVec.shrunkAlign_le h (s.align c)
  have hlow : v.shrunkAlign xs (s.align c) < v.align := by
    rcases Nat.lt_or_eq_of_le hale with h1 | h1
    · exact h1
    · rw [h1] at hdiff; exact absurd rfl hdiff
  have hd : v.shrunkAlign xs (s.align c) ∣ v.align := ha'.dvd_of_le h.al hale
  have hkl : k < xs.length := by omega
  have hpos : 0 < xs[k].size := by
    rcases Nat.eq_zero_or_pos xs[k].size with h0 | h0
    · rw [h0, padTo_zero, padTo_zero] at hdiff; exact absurd rfl hdiff
    · exact h0
  have hel := elem_le_extent (padTo v.align) (le_padTo h.al.pos) xs k hkl
  rw [s.run_unaligned env hs] at hr
  obtain ⟨⟨p, e⟩, hall⟩ := Option.ne_none_iff_exists'.1 (hg ⟨max (min (s.bytes c) v.byteCap)
    (padTo (v.shrunkAlign xs (s.align c)) (extent (padTo v.align) xs)), v.shrunkAlign xs (s.align c)⟩)
  obtain ⟨H, hH, hcut⟩ := UVec.shrinkTo_cut h he hi _ _ hs hlow (by omega) (by omega) hall hr
  have helem : ∀ z ∈ xs, z.align ∣ v.shrunkAlign xs (s.align c) := by
    intro z hz
    have h1 := UVec.le_maxAlign hz
    exact IsAlign.dvd_of_le (h.wf z hz).align_pow ha' (by unfold UVec.shrunkAlign; omega)
  have hpv := (hv _ _ _ ha'.pos hall).2
  have hce := le_padTo ha'.pos (extent (padTo v.align) xs)
  have hcap := h.cap
  have hmax := h.capMax
  have hspan := h.span
  rw [h.infos] at hH
  generalize v.shrunkAlign xs (s.align c) = b at *
  obtain ⟨d, f1, f2, f3, f4, f5, f6⟩ := UVec.realignDownMove_first h.al ha' hd k xs 0 0 v.heap H (Nat.dvd_zero _) hk hsame
    (fun _ => rfl) (.inl rfl) (by omega) (by omega) hH
  simp only [Nat.zero_add] at f2 f5 f6
  have hv' := hcut f3
  subst hv'
  refine ⟨totalWidth (padTo v.align) (xs.take k) + padTo b xs[k].size - d, d, f1, by omega, fun i hik => ?_, ?_⟩
  · obtain ⟨_, g2, g3⟩ := UVec.cut_get h H (max xs.length (min v.elemsCap s.slots))
      (cap := max (min (s.bytes c) v.byteCap) (padTo b (extent (padTo v.align) xs))) ha' hpv hd helem (by omega) (i := i) (by omega) rfl
    rw [g2, Option.map_some, g3]
    congr 1
    have hil : i < xs.length := by omega
    have hoff : UVec.lookedUp v.align b xs i = totalWidth (padTo v.align) (xs.take i) := by
      cases i with
      | zero => simp [UVec.lookedUp]
      | succ i =>
        rw [UVec.lookedUp, List.getElem?_eq_getElem (by omega), Option.elim_some, totalWidth_take_succ _ _ _ (by omega), hsame i (by omega)]
    have hbl := (h.wf _ (List.getElem_mem hil)).bytes_len
    have hm := memAt_getElem h.mem i hil
    have hle : totalWidth (padTo v.align) (xs.take i) + xs[i].size ≤ totalWidth (padTo v.align) (xs.take k) + padTo b xs[k].size := by
      have h1 := le_padTo ha'.pos xs[k].size
      rcases Nat.lt_or_eq_of_le hik with h2 | h2
      · have h3 := totalWidth_take_succ (padTo v.align) xs i hil
        have h4 := totalWidth_take_le (padTo v.align) (xs.take k) (i + 1)
        rw [List.take_take, Nat.min_eq_left (by omega)] at h4
        have h5 := le_padTo h.al.pos xs[i].size
        omega
      · subst h2; omega
    have : (List.range xs[i].size).map (fun j => H.mem (UVec.lookedUp v.align b xs i + j)) = xs[i].bytes := by
      refine List.ext_getElem (by simp [hbl]) (fun j h1 h2 => ?_)
      have := hm j h2
      simp only [Nat.zero_add] at this
      simp only [List.getElem_map, List.getElem_range]
      rw [hoff, f5 _ (by omega), this]
    rw [this]
  · obtain ⟨_, g2, g3⟩ := UVec.cut_get h H (max xs.length (min v.elemsCap s.slots))
      (cap := max (min (s.bytes c) v.byteCap) (padTo b (extent (padTo v.align) xs))) ha' hpv hd helem (by omega) (i := k + 1) hk rfl
    rw [g2, Option.map_some, g3]
    congr 2
    refine List.map_congr_left (fun j hj => ?_)
    rw [List.mem_range] at hj
    rw [UVec.lookedUp, List.getElem?_eq_getElem hkl, Option.elim_some]
    exact f6 j hj

/-- C18 fails on vectors of every shape outside the covered case: if some element but the last needs less padding after
lowering the alignment, and the element behind the first such one has a byte at all, then with some other bytes in the same
memory (so the same lengths, alignments, places and capacities) the shrinking method does not return, or returns a vector with
other contents. -/
theorem C18_shrink_unaligned_wrong {v : UVec T β} {xs : List (Val T β)} (h : v.Holds c xs) {env : Env (Val T β)} (hv : env.Valid)
    (he : env.Exact) (hi : env.infoShrink = true) (hg : ∀ l, env.alloc l ≠ none) (s : Shrinking) (hs : IsAlign c (s.align c))
    {k : Nat} (hk : k + 1 < xs.length)
    (hsame : ∀ i (h : i < k), padTo v.align xs[i].size = padTo (v.shrunkAlign xs (s.align c)) xs[i].size)
    (hdiff : padTo v.align xs[k].size ≠ padTo (v.shrunkAlign xs (s.align c)) xs[k].size)
    (hnext : 0 < xs[k + 1].size) (hβ : ∀ b : β, ∃ b', b' ≠ b) :
    ∃ mem ys, UVec.Holds c { v with heap := { v.heap with mem := mem } } ys ∧ ys.map Val.md = xs.map Val.md ∧
      ∀ v', s.run c (unalignedP c T) env { v with heap := { v.heap with mem := mem } } = .ok () v' → v'.observe c ≠ some ys := by
  have hkl : k < xs.length := by omega
  have ha' := UVec.shrunkAlign_isAlign h hs
  have hd := ha'.dvd_of_le h.al (UVec.shrunkAlign_le h (s.align c))
  have hpl := padTo_least ha'.pos (Nat.dvd_trans hd (dvd_padTo v.align xs[k].size)) (le_padTo h.al.pos _)
  obtain ⟨src, hsrc⟩ : ∃ src, src = totalWidth (padTo v.align) (xs.take k) + padTo (v.shrunkAlign xs (s.align c)) xs[k].size -
      (if k = 0 then 0 else padTo v.align xs[k].size - padTo (v.shrunkAlign xs (s.align c)) xs[k].size) := ⟨_, rfl⟩
  have hlt : src < totalWidth (padTo v.align) (xs.take (k + 1)) := by
    rw [totalWidth_take_succ _ _ _ hkl]; omega
  obtain ⟨b', hb'⟩ := hβ (v.heap.mem (totalWidth (padTo v.align) (xs.take (k + 1))))
  obtain ⟨mem, hmem⟩ : ∃ mem : Nat → β, mem = fun i => if i = src then b' else v.heap.mem i := ⟨_, rfl⟩
  obtain ⟨ys, hys⟩ : ∃ ys, ys = UVec.reread mem (padTo v.align) 0 xs := ⟨_, rfl⟩
  have hH := UVec.holds_reread h mem
  rw [← hys] at hH
  have hmd : ys.map Val.md = xs.map Val.md := by rw [hys]; exact UVec.reread_md _ _ _ _
  have hlen : ys.length = xs.length := by simpa using congrArg List.length hmd
  have hmdi : ∀ i (h1 : i < ys.length) (h2 : i < xs.length), ys[i].md = xs[i].md := by
    intro i h1 h2
    have : (ys.map Val.md)[i]'(by simpa using h1) = (xs.map Val.md)[i]'(by simpa using h2) := by simp only [hmd]
    simpa using this
  have hsz : ∀ i (h1 : i < ys.length) (h2 : i < xs.length), ys[i].size = xs[i].size := by
    intro i h1 h2
    unfold Val.size
    rw [hmdi i h1 h2]
  have hsa : UVec.shrunkAlign { v with heap := { v.heap with mem := mem } } ys (s.align c) = v.shrunkAlign xs (s.align c) := by
    unfold UVec.shrunkAlign
    rw [UVec.maxAlign_md ys xs hmd]
  have htk : ∀ n, totalWidth (padTo v.align) (ys.take n) = totalWidth (padTo v.align) (xs.take n) := by
    intro n
    exact UVec.totalWidth_md _ _ _ (by rw [List.map_take, List.map_take, hmd])
  refine ⟨mem, ys, hH, hmd, fun v' hr hobs => ?_⟩
  obtain ⟨src', back, f1, f2, _, f4⟩ := C18_shrink_unaligned_first hH hv he hi hg s hs (k := k) (by omega)
    (fun i hik => by rw [hsa, hsz i (by omega) (by omega)]; exact hsame i hik)
    (by rw [hsa, hsz k (by omega) (by omega)]; exact hdiff) hr
  rw [hsa, hsz k (by omega) hkl] at f1 f2
  dsimp only at f1 f2
  rw [htk] at f2
  have hss : src' = src := by rw [hsrc, ← f1]; omega
  have hl' : k + 1 < v'.len := by
    have := mapM_some_length _ hobs
    rw [List.length_range] at this
    omega
  have hget := mapM_some_get _ hobs (k + 1) (by simpa using hl') (by omega)
  rw [List.getElem_range, f4] at hget
  injection hget with hget
  have hby := congrArg Val.bytes hget
  dsimp only at hby
  have h0 : 0 < ys[k + 1].size := by rw [hsz _ (by omega) hk]; exact hnext
  have hm := memAt_getElem hH.mem (k + 1) (by omega) 0 (by rw [(hH.wf _ (List.getElem_mem _)).bytes_len]; exact h0)
  have h1 : ys[k + 1].bytes[0]'(by rw [(hH.wf _ (List.getElem_mem _)).bytes_len]; exact h0) = mem src := by
    have : ∀ (n : Nat) (l : List β) (hl : 0 < l.length), l = (List.range n).map (fun j => mem (src' + j)) → l[0] = mem src := by
      intro n l hl e
      subst e
      simp [hss]
    exact this _ _ _ hby.symm
  rw [h1] at hm
  dsimp only at hm
  rw [htk, hmem] at hm
  simp only [Nat.zero_add, Nat.add_zero, if_true] at hm
  rw [if_neg (by omega)] at hm
  exact hb' hm.symm

end

/-- The allocator of `vecGap` never refuses, and its first element needs less padding with alignment 1. -/
example : (∀ l, (env : Env (Val Dyn Nat)).alloc l ≠ none) ∧ padTo vecGap.align (dyn 1 [1]).size ≠
    padTo (vecGap.shrunkAlign [dyn 1 [1], dyn 1 [2, 3]] (Shrinking.toFit.align c64)) (dyn 1 [1]).size :=
  ⟨fun _ h => (by cases h), by decide⟩

/-- A vector with alignment 8 in which the second element (`k = 1`) is the first that needs less padding with alignment 4. -/
def vecBack : UVec Dyn Nat where
  ptr := 65536
  byteCap := 32
  elems := [⟨(8, 4), 8⟩, ⟨(4, 4), 12⟩, ⟨(2, 1), 18⟩]
  elemsCap := 4
  align := 8
  heap := ⟨fun i => [1, 2, 3, 4, 5, 6, 7, 8, 11, 12, 13, 14, 99, 99, 99, 99, 21, 22].getD i 0, some ⟨65536, 32, 32, 8⟩, 0⟩
  drops := []

theorem vecBack_holds : vecBack.Holds c64 [dyn 4 [1, 2, 3, 4, 5, 6, 7, 8], dyn 4 [11, 12, 13, 14], dyn 1 [21, 22]] := by
  refine ⟨?_, ⟨3, by decide, rfl⟩, by decide, by decide, by decide, by decide, by decide,
    by decide, by refine ⟨?_, ?_, ?_, trivial⟩ <;> decide, by refine ⟨?_, ?_, ?_, ?_, ?_, ?_, ?_⟩ <;> decide, rfl⟩
  intro x hx
  simp only [List.mem_cons, List.not_mem_nil, or_false] at hx
  rcases hx with rfl | rfl | rfl
  · exact dyn_wf 2 _ (by decide) (by decide) (by decide) _ (.inl rfl)
  · exact dyn_wf 2 _ (by decide) (by decide) (by decide) _ (.inl rfl)
  · exact dyn_wf 0 _ (by decide) (by decide) (by decide) _ (.inl rfl)

/-- The third element `[21, 22]` turns into the first bytes of the *second* one. -/
example : seen (Shrinking.toFit.run c64 (unalignedP c64 Dyn) env vecBack) =
    some [dyn 4 [1, 2, 3, 4, 5, 6, 7, 8], dyn 4 [11, 12, 13, 14], dyn 1 [11, 12]] := by decide

end Verif
