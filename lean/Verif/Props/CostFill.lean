import Verif.Props.Cost
import Verif.Props.Copying
import Verif.Proofs.HistoryInst

/-!
# C68: filling a vector with `push_with` is quadratic

`C68_pushesWith_lower_aligned` says what calls of `push_with` cost if they all return. Here they do: no allocator has to refuse anything for
the amount of work to be quadratic.
-/

namespace Verif
open Sample

section
variable {A : ATy} {β : Type} [Inhabited β] {c : Cfg}

/-- One `push_with` that has memory, with an allocator that grants exactly what it is asked for. -/
theorem AVec.pushWith_step (hA : A.Lawful c) {env : Env (Val A.ty β)} (hv : env.Valid) (he : env.Exact)
    (hg : ∀ l, env.alloc l ≠ none) (hi : ∀ n, ∃ k, env.infoGrow n = .ok k) {v : AVec A β} {ys : List (Val A.ty β)}
    {x : Val A.ty β} (hxw : x.WF c) (hlen : ys.length + 1 ≤ c.infoMax) (hsize : v.byteCap + x.size ≤ VS.max c A.ALIGN)
    (hH : v.Holds c ys) :
    ∃ v1, (Op.pushWith (.value x)).exec c (alignedM c A) env v = .ok .done v1 ∧ v1.Holds c (ys ++ [x]) ∧ v1.byteCap = v.byteCap + x.size := by
  have hs : Emplacable.Sound c ((Src.value x).code env) [] := Src.sound (s := .value x) (xs := ys) hxw env []
  have hns : ¬ AVec.Short c env (.pushWith (.value x)) v ys := by
    rintro (⟨n, l, ⟨err, h1⟩ | h1⟩ | h1 | h1)
    · obtain ⟨k, h2⟩ := hi n
      rw [h2] at h1; cases h1
    · exact hg l h1
    · have h1 : c.infoMax < ys.length + 1 := h1
      omega
    · have h1 : VS.max c A.ALIGN < v.byteCap + x.size := h1
      omega
  have key := (AVec.client hA).pushWith (env := env) (s := .value x) hH hv hxw trivial
  cases hp : Api.pushWithRun (alignedP c A) env ((Src.value x).code env) ([], v) with
  | ub => exact (by rw [show Api.pushWithRun (alignedM c A).P env ((Src.value x).code env) ([], v) = _ from hp] at key; exact key.elim)
  | abort => exact absurd (by rw [show Api.pushWithRun (alignedM c A).P env ((Src.value x).code env) ([], v) = _ from hp] at key; exact key) hns
  | panic st =>
    rw [show Api.pushWithRun (alignedM c A).P env ((Src.value x).code env) ([], v) = _ from hp] at key
    exact absurd (key.2.2 ⟨x, rfl⟩) hns
  | ok u st =>
    rw [show Api.pushWithRun (alignedM c A).P env ((Src.value x).code env) ([], v) = _ from hp] at key
    obtain ⟨ds, v1⟩ := st
    obtain ⟨e1, y, e2, e3, _⟩ := key
    cases e2
    dsimp only at e1
    subst e1
    obtain ⟨y, e4, _, e5⟩ := AVec.pushWith_grown hA.fits hH hv hs hp
    refine ⟨v1, ?_, e3, ?_⟩
    · have h1 : onRight (alignedM c A) (Api.pushWithRun (alignedM c A).P env ((Src.value x).code env)) v = .ok () v1 := by
        unfold onRight
        rw [show Api.pushWithRun (alignedM c A).P env ((Src.value x).code env) ([], v) = _ from hp]
        rfl
      exact Exec.bind_ok h1
    · have e6 : v1.byteCap = v.byteCap + y.size := e5.exact he
      obtain ⟨e7, _⟩ := Src.runs e4
      injection e7 with e7
      rw [e6, e7]

/-- So the work of `push_with` is quadratic: with an allocator that grants everything, exactly, `push_with` puts any values into a new vector, one
after the other; and if all of them have at least `s` bytes, at least `s · (1 + 2 + … + (n - 1))` bytes have been copied at the end. Compare
`C68_pushes_aligned`. -/
theorem C68_pushesWith_aligned (hA : A.Lawful c) {env : Env (Val A.ty β)} (hv : env.Valid) (he : env.Exact)
    (hg : ∀ l, env.alloc l ≠ none) (hi : ∀ n, ∃ k, env.infoGrow n = .ok k) {xs : List (Val A.ty β)}
    (hlen : xs.length ≤ c.infoMax) (hsize : totalWidth id xs ≤ VS.max c A.ALIGN) {s : Nat} (hs : 0 < s) (hx : ∀ x ∈ xs, x.WF c ∧ s ≤ x.size) :
    ∃ v' n, runOps c (alignedMetered c A) (xs.map fun x => (env, .pushWith (.value x))) (AVec.new, 0) = .ok (xs.map fun _ => .done) (v', n) ∧
      v'.Holds c xs ∧ v'.byteCap = totalWidth id xs ∧ xs.length * (xs.length - 1) / 2 * s ≤ n := by
  have key := runOps_return (c := c) (M := alignedMetered c A) (env := env) (op := fun x => .pushWith (.value x)) (all := xs)
    (J := fun s ys => s.1.Holds c ys ∧ s.1.byteCap = totalWidth id ys) ?_ xs (AVec.new, 0) [] rfl ⟨AVec.new_holds hA.fits, rfl⟩
  · obtain ⟨⟨v', n⟩, h1, h2, h3⟩ := key
    have := C68_pushesWith_lower_aligned env AVec.new hs (fun x h => (hx x h).2) h1
    exact ⟨v', n, h1, h2, h3, by omega⟩
  · rintro ⟨v, n⟩ ys x rest hall ⟨hH, hcap⟩
    dsimp only at hH hcap
    have hw : totalWidth id xs = totalWidth id ys + (x.size + totalWidth id rest) := by rw [← hall, totalWidth_append]; rfl
    have hl : xs.length = ys.length + (rest.length + 1) := by rw [← hall]; simp
    obtain ⟨v1, h1, h2, h3⟩ := AVec.pushWith_step hA hv he hg hi (hx x (by rw [← hall]; simp)).1 (by omega) (by omega) hH
    obtain ⟨d, h5, _⟩ := (AVec.Metered.pushWith_op_meters env x v).returns ((aligned_over A).exec (.pushWith (.value x))) h1 n
    refine ⟨_, h5, h2, ?_⟩
    dsimp only
    rw [h3, hcap, totalWidth_append]
    rfl

/-- The hypotheses can be met: five slices of a byte each, for which 10 bytes have to be copied; all in all the meter shows 24
(`C68_counterexample`). -/
example : (envDoubles : Env (Val Bytes.ty Nat)).Valid ∧ (envDoubles : Env (Val Bytes.ty Nat)).Exact ∧
    (∀ l, (envDoubles : Env (Val Bytes.ty Nat)).alloc l ≠ none) ∧ (∀ n, ∃ k, (envDoubles : Env (Val Bytes.ty Nat)).infoGrow n = .ok k) ∧
    (∀ x ∈ List.replicate 5 (bytes [1]), x.WF c64 ∧ 1 ≤ x.size) ∧ totalWidth id (List.replicate 5 (bytes [1])) ≤ VS.max c64 Bytes.ALIGN ∧
    (List.replicate 5 (bytes [1])).length * ((List.replicate 5 (bytes [1])).length - 1) / 2 * 1 = 10 :=
  ⟨env_valid (X := Val Bytes.ty Nat), env_exact (X := Val Bytes.ty Nat), fun _ => (by intro h; cases h), fun n => ⟨_, rfl⟩,
    fun x hx => by rw [List.eq_of_mem_replicate hx]; exact ⟨bytes_wf _ (by decide) _ (.inl rfl), by decide⟩, by decide, by decide⟩

end

section
variable {T : UTy} {β : Type} [Inhabited β] {c : Cfg}

/-- One `push_with` of a value that has bytes, dynamically aligned elements: if the elements fill the storage, they still do afterwards. -/
theorem UVec.pushWith_step {env : Env (Val T β)} (hv : env.Valid) (he : env.Exact)
    (hg : ∀ l, env.alloc l ≠ none) (hi : ∀ n, ∃ k, env.infoGrow n = .ok k) {v : UVec T β} {ys : List (Val T β)}
    {x : Val T β} (hxw : x.WF c) (h0 : 0 < x.size) (hlen : ys.length + 1 ≤ c.infoMax)
    (hsize : totalWidth (padTo (max v.align x.align)) (ys ++ [x]) ≤ c.isizeMax)
    (hH : v.Holds c ys) (hcap : v.byteCap = totalWidth (padTo v.align) ys) :
    ∃ v1, (Op.pushWith (.value x)).exec c (unalignedM c T) env v = .ok .done v1 ∧ v1.Holds c (ys ++ [x]) ∧ v1.align = max v.align x.align ∧
      v1.byteCap = totalWidth (padTo (max v.align x.align)) (ys ++ [x]) := by
  have hm := hH.al.max hxw.align_pow
  have hmono := totalWidth_mono_align hH.al.pos hm.pos (hH.al.dvd_of_le hm (Nat.le_max_left _ _)) ys
  have hreq : (UVec.request v ys x.size x.align).size = totalWidth (padTo (max v.align x.align)) (ys ++ [x]) := by
    show padTo (max v.align x.align) (padTo (max v.align x.align) (v.byteCap +
      (totalWidth (padTo (max v.align x.align)) ys - totalWidth (padTo v.align) ys)) + x.size) = _
    have h1 : v.byteCap + (totalWidth (padTo (max v.align x.align)) ys - totalWidth (padTo v.align) ys) =
        totalWidth (padTo (max v.align x.align)) ys := by omega
    rw [h1, padTo_of_dvd hm.pos (dvd_totalWidth _), padTo_add hm.pos (dvd_totalWidth _), totalWidth_append]
    rfl
  have hs : Emplacable.Sound c ((Src.value x).code env) [] := Src.sound (s := .value x) (xs := ys) hxw env []
  have hzx : v.ZstOk x.size x.align := fun _ h1 => absurd h1 (by omega)
  have hns : ¬ UVec.Short c env (.pushWith (.value x)) v ys := by
    rintro (⟨n, l, ⟨err, h1⟩ | h1⟩ | h1 | h1)
    · obtain ⟨k, h2⟩ := hi n
      rw [h2] at h1; cases h1
    · exact hg l h1
    · have h1 : c.infoMax < ys.length + 1 := h1
      omega
    · have h1 : c.isizeMax < (UVec.request v ys x.size x.align).size := h1
      omega
  have key := (UVec.client True c T).pushWith (env := env) (s := .value x) hH ⟨hv, fun _ => he⟩ hxw hzx
  cases hp : Api.pushWithRun (unalignedP c T) env ((Src.value x).code env) ([], v) with
  | ub => exact (by rw [show Api.pushWithRun (unalignedM c T).P env ((Src.value x).code env) ([], v) = _ from hp] at key; exact key.elim)
  | abort => exact absurd (by rw [show Api.pushWithRun (unalignedM c T).P env ((Src.value x).code env) ([], v) = _ from hp] at key; exact key) hns
  | panic st =>
    rw [show Api.pushWithRun (unalignedM c T).P env ((Src.value x).code env) ([], v) = _ from hp] at key
    exact absurd (key.2.2 ⟨x, rfl⟩) hns
  | ok u st =>
    rw [show Api.pushWithRun (unalignedM c T).P env ((Src.value x).code env) ([], v) = _ from hp] at key
    obtain ⟨ds, v1⟩ := st
    obtain ⟨e1, y, e2, e3, _⟩ := key
    cases e2
    dsimp only at e1
    subst e1
    obtain ⟨y, e4, _, _, e5⟩ := UVec.pushWith_grown hH hv he hs (fun md s1 hm => by cases hm with | intro st h => cases h.1; rw [← h.2]; exact hzx) hp
    obtain ⟨e7, _⟩ := Src.runs e4
    injection e7 with e7
    subst e7
    refine ⟨v1, ?_, e3, e5.align, ?_⟩
    · have h1 : onRight (unalignedM c T) (Api.pushWithRun (unalignedM c T).P env ((Src.value x).code env)) v = .ok () v1 := by
        unfold onRight
        rw [show Api.pushWithRun (unalignedM c T).P env ((Src.value x).code env) ([], v) = _ from hp]
        rfl
      exact Exec.bind_ok h1
    · have h1 := e5.le
      rcases e5.tight he with h2 | h2
      · omega
      · rw [h2, hreq]

/-- The work of `push_with` is quadratic for dynamically aligned elements as well, whatever their alignments: with an allocator that grants
everything, exactly, the values fill the storage, without any room left, and all of it has been copied for each of them. -/
theorem C68_pushesWith_unaligned (hu : IsAlign c c.usizeAlign) {env : Env (Val T β)} (hv : env.Valid) (he : env.Exact)
    (hg : ∀ l, env.alloc l ≠ none) (hi : ∀ n, ∃ k, env.infoGrow n = .ok k) {xs : List (Val T β)}
    (hlen : xs.length ≤ c.infoMax) (hsize : totalWidth (padTo (topAlign c.usizeAlign xs)) xs ≤ c.isizeMax) {s : Nat} (hs : 0 < s)
    (hx : ∀ x ∈ xs, x.WF c ∧ s ≤ x.size) :
    ∃ v' n, runOps c (unalignedMetered c T) (xs.map fun x => (env, .pushWith (.value x))) (UVec.newAlignPtr c, 0) = .ok (xs.map fun _ => .done) (v', n) ∧
      v'.Holds c xs ∧ v'.align = topAlign c.usizeAlign xs ∧ v'.byteCap = totalWidth (padTo (topAlign c.usizeAlign xs)) xs ∧
      xs.length * (xs.length - 1) / 2 * s ≤ n := by
  have key := runOps_return (c := c) (M := unalignedMetered c T) (env := env) (op := fun x => .pushWith (.value x)) (all := xs)
    (J := fun s ys => s.1.Holds c ys ∧ s.1.align = topAlign c.usizeAlign ys ∧ s.1.byteCap = totalWidth (padTo s.1.align) ys) ?_ xs
    (UVec.newAlignPtr c, 0) [] rfl ⟨UVec.newAlignPtr_holds hu, rfl, rfl⟩
  · obtain ⟨⟨v', n⟩, h1, h2, h3, h4⟩ := key
    dsimp only at h3 h4
    have := C68_pushesWith_lower_unaligned (UVec.newAlignPtr_holds hu) env hs hx h1
    exact ⟨v', n, h1, h2, h3, by rw [h4, h3], by omega⟩
  · rintro ⟨v, n⟩ ys x rest hall ⟨hH, hal, hcap⟩
    dsimp only at hH hal hcap
    obtain ⟨hxw, hxs⟩ := hx x (by rw [← hall]; simp)
    have htop : IsAlign c (topAlign c.usizeAlign xs) := topAlign_isAlign hu fun y hy => (hx y hy).1.align_pow
    have hma : max v.align x.align ≤ topAlign c.usizeAlign xs := by
      rw [← hall, topAlign_append, ← hal]; exact le_topAlign _ rest
    have hm := hH.al.max hxw.align_pow
    have hw : totalWidth (padTo (topAlign c.usizeAlign xs)) xs =
        totalWidth (padTo (topAlign c.usizeAlign xs)) (ys ++ [x]) + totalWidth (padTo (topAlign c.usizeAlign xs)) rest := by
      rw [← totalWidth_append, List.append_assoc, List.singleton_append, hall]
    have hw1 := totalWidth_mono_align hm.pos htop.pos (hm.dvd_of_le htop hma) (ys ++ [x])
    have hl : xs.length = ys.length + (rest.length + 1) := by rw [← hall]; simp
    obtain ⟨v1, h1, h2, h3, h4⟩ := UVec.pushWith_step hv he hg hi hxw (by omega) (by omega) (by omega) hH hcap
    obtain ⟨d, h5, _⟩ := (UVec.Metered.pushWith_op_meters env hxw.align_pow hH.al).returns ((unaligned_over T).exec (.pushWith (.value x))) h1 n
    refine ⟨_, h5, h2, ?_, ?_⟩
    · dsimp only; rw [h3, topAlign_append, hal]; rfl
    · dsimp only; rw [h4, h3]

/-- The hypotheses can be met: elements that raise the alignment twice, with at least four bytes each. The bound is 24; all in all the meter
shows 186. -/
example : IsAlign c64 c64.usizeAlign ∧ (∀ x ∈ rising, x.WF c64 ∧ 4 ≤ x.size) ∧ rising.length ≤ c64.infoMax ∧
    totalWidth (padTo (topAlign c64.usizeAlign rising)) rising ≤ c64.isizeMax ∧ rising.length * (rising.length - 1) / 2 * 4 = 24 ∧
    (runOps c64 (unalignedMetered c64 Dyn) (rising.map fun x => (envDoubles, .pushWith (.value x))) (UVec.newAlignPtr c64, 0)).meter = some 186 := by
  refine ⟨⟨3, by decide, rfl⟩, ?_, by decide, by decide, by decide, by decide +kernel⟩
  intro x hx
  simp only [rising, List.mem_cons, List.not_mem_nil, or_false] at hx
  rcases hx with rfl | rfl | rfl | rfl
  · exact ⟨dyn_wf 2 _ (by decide) (by decide) (by decide) _ (.inl rfl), by decide⟩
  · exact ⟨dyn_wf 4 _ (by decide) (by decide) (by decide) _ (.inl rfl), by decide⟩
  · exact ⟨dyn_wf 3 _ (by decide) (by decide) (by decide) _ (.inl rfl), by decide⟩
  · exact ⟨dyn_wf 5 _ (by decide) (by decide) (by decide) _ (.inl rfl), by decide⟩

end
end Verif
