import Verif.Model.Unsize
import Verif.Proofs.FromSized
import Verif.Proofs.Drop

/-!
# Lemmas about `unsize`
-/

namespace Verif
variable {T : UTy} {A : ATy} {β : Type} [Inhabited β] {c : Cfg} {r : RawVec β} {xs : List (List β)}

/-- The records of equally large elements. -/
theorem infosFrom_equal {R : Type} {enc : T.Meta → R} {md : T.Meta} (xs : List (List β)) (off : Nat) :
    infosFrom enc id off (xs.map (unsized md)) =
      (List.range xs.length).map (fun i => (⟨enc md, off + (i + 1) * T.sizeOf md⟩ : Info R)) := by
  induction xs generalizing off with
  | nil => rfl
  | cons x xs ih =>
    rw [List.length_cons, List.range_succ_eq_map, List.map_cons, List.map_cons, List.map_map]
    show (⟨enc md, off + T.sizeOf md⟩ : Info R) :: infosFrom enc id (off + T.sizeOf md) (xs.map (unsized md)) = _
    rw [ih, Nat.zero_add, Nat.one_mul]
    congr 1
    apply List.map_congr_left
    intro i _
    simp only [Function.comp]
    rw [Nat.succ_eq_add_one, Nat.add_mul (i + 1) 1, Nat.one_mul]
    congr 1; omega

theorem totalWidth_equal {md : T.Meta} (xs : List (List β)) : totalWidth id (xs.map (unsized md)) = xs.length * T.sizeOf md := by
  induction xs with
  | nil => simp [totalWidth]
  | cons x xs ih =>
    show T.sizeOf md + totalWidth id (xs.map (unsized md)) = _
    rw [ih, List.length_cons, Nat.add_mul, Nat.one_mul, Nat.add_comm]

theorem memAt_equal {mem : Nat → β} {md : T.Meta} {xs : List (List β)} {off : Nat}
    (h : ∀ i (hi : i < xs.length), BytesAre mem (off + i * T.sizeOf md) xs[i]) : MemAt mem id off (xs.map (unsized md)) := by
  induction xs generalizing off with
  | nil => trivial
  | cons x xs ih =>
    refine ⟨?_, ih (off := off + T.sizeOf md) fun i hi => ?_⟩
    · have := h 0 (by simp); rwa [Nat.zero_mul] at this
    · have := h (i + 1) (by simpa using hi)
      rw [Nat.add_mul, Nat.one_mul] at this
      rw [show off + T.sizeOf md + i * T.sizeOf md = off + (i * T.sizeOf md + T.sizeOf md) by omega]
      exact this

theorem collectRecords_meets {σ X : Type} (env : Env X) (n : Nat) (s : σ) :
    (collectRecords c env n s).Meets (fun cap s' => n ≤ cap ∧ s' = s)
      (fun s' => s' = s ∧ 0 < n ∧ (c.infoMax < n ∨ env.infoGrow n = .error .capacityOverflow))
      (0 < n ∧ n ≤ c.infoMax ∧ env.infoGrow n = .error .allocError) := by
  unfold collectRecords stdReserve
  by_cases h0 : n ≤ 0
  · rw [if_pos (by omega)]
    exact ⟨by omega, rfl⟩
  · rw [if_neg (by omega), Nat.zero_add]
    by_cases h1 : c.infoMax < n
    · rw [if_pos h1]; exact ⟨rfl, by omega, .inl h1⟩
    · rw [if_neg h1]
      cases hg : env.infoGrow n with
      | ok e => exact ⟨by omega, rfl⟩
      | error e =>
        cases e with
        | capacityOverflow => exact ⟨rfl, by omega, .inr rfl⟩
        | allocError => exact ⟨by omega, by omega, rfl⟩

/-- The vector that `unsize` makes of `r`: its records number `i` ends where element `i` starts. -/
def UVec.shiftedVec (r : RawVec β) (n : Nat) (md : T.Meta) (cap : Nat) : UVec T β :=
  ⟨r.ptr, r.cap * r.elemSize, (List.range n).map (fun i => ⟨md, i * r.elemSize⟩), cap, r.elemAlign, r.heap, []⟩

/-- The same for statically aligned types. -/
def AVec.shiftedVec (r : RawVec β) (n : Nat) (md : A.ty.Meta) (cap : Nat) : AVec A β :=
  ⟨r.ptr, r.cap * r.elemSize, (List.range n).map (fun i => ⟨A.enc md, i * r.elemSize⟩), cap, r.heap, []⟩

theorem UVec.unsize_meets (h : r.Holds c xs) (env : Env (Val T β)) (md : T.Meta) :
    (UVec.unsize c env r md ()).Meets (fun v _ => ∃ cap, xs.length ≤ cap ∧ v = UVec.shiftedVec r xs.length md cap)
      (fun _ => 0 < xs.length ∧ (c.infoMax < xs.length ∨ env.infoGrow xs.length = .error .capacityOverflow))
      (0 < xs.length ∧ xs.length ≤ c.infoMax ∧ env.infoGrow xs.length = .error .allocError) := by
  unfold UVec.unsize
  rw [h.len]
  refine ((collectRecords_meets env xs.length ()).mono (fun _ _ h => h) (fun _ h => h.2) id).bind ?_
  rintro cap _ ⟨hc, rfl⟩
  rw [Exec.orUb_bind (UVec.fromSized_eq h md)]
  exact ⟨cap, hc, rfl⟩

theorem AVec.unsize_meets (h : r.Holds c xs) (ha : A.ALIGN = r.elemAlign) (env : Env (Val A.ty β)) (md : A.ty.Meta) :
    (AVec.unsize c env r md ()).Meets (fun v _ => ∃ cap, xs.length ≤ cap ∧ v = AVec.shiftedVec r xs.length md cap)
      (fun _ => 0 < xs.length ∧ (c.infoMax < xs.length ∨ env.infoGrow xs.length = .error .capacityOverflow))
      (0 < xs.length ∧ xs.length ≤ c.infoMax ∧ env.infoGrow xs.length = .error .allocError) := by
  unfold AVec.unsize
  rw [h.len]
  refine ((collectRecords_meets env xs.length ()).mono (fun _ _ h => h) (fun _ h => h.2) id).bind ?_
  rintro cap _ ⟨hc, rfl⟩
  rw [Exec.orUb_bind (AVec.fromSized_eq h ha.symm md)]
  exact ⟨cap, hc, rfl⟩

/-- For slices the shifted records describe a list: an empty element followed by all elements but the last. -/
theorem AVec.shiftedVec_holds (hA : A.Lawful c) (hX : A.Exact) {x : List β} (h : r.Holds c (x :: xs)) {md : A.ty.Meta}
    (hs : A.ty.sizeOf md = r.elemSize) (ha : A.ALIGN = r.elemAlign) (h0 : A.ty.sizeOf (A.dec (A.enc md) 0) = 0)
    (h1 : A.enc (A.dec (A.enc md) 0) = A.enc md) {cap : Nat} (hc : (x :: xs).length ≤ cap) :
    (AVec.shiftedVec (A := A) r (x :: xs).length md cap).Holds c
      (⟨A.dec (A.enc md) 0, []⟩ :: (x :: xs).dropLast.map (unsized md)) := by
  have hcm := h.capMax
  have hwf := h.wf hs (T := A.ty) (by rw [hX, ha])
  have hdl : (x :: xs).dropLast.length = xs.length := by simp
  have hle := h.mul_le (i := xs.length) (by simp)
  refine ⟨?_, fun x _ => hA.keeps x.md, ?_, ?_, ?_, ?_, ?_, ?_, h.leaks⟩
  · intro y hy
    rcases List.mem_cons.1 hy with rfl | hy
    · refine ⟨h0.symm, ?_, ?_, ?_⟩
      · show ∃ k, _ ∧ A.ty.alignOf _ = _
        rw [hX]; exact hA.al
      · show _ ∣ A.ty.sizeOf _
        rw [h0]; exact Nat.dvd_zero _
      · show A.ty.sizeOf _ + (A.ty.alignOf _ - 1) ≤ _
        rw [h0, hX, ha]
        have := h.sizeMax; omega
    · obtain ⟨b, hb, rfl⟩ := List.mem_map.1 hy
      exact hwf _ (List.mem_map_of_mem (List.dropLast_subset _ hb))
  · show (List.range (x :: xs).length).map _ = ⟨A.enc (A.dec (A.enc md) 0), 0 + A.ty.sizeOf (A.dec (A.enc md) 0)⟩ ::
      infosFrom A.enc id (0 + A.ty.sizeOf (A.dec (A.enc md) 0)) _
    rw [h0, h1, infosFrom_equal, hdl, List.length_cons, List.range_succ_eq_map, List.map_cons, List.map_map, Nat.zero_mul]
    congr 1
    apply List.map_congr_left
    intro i _
    simp only [Function.comp, hs]
    rw [Nat.zero_add]
  · simpa [AVec.shiftedVec] using hc
  · show A.ty.sizeOf (A.dec (A.enc md) 0) + totalWidth id _ ≤ _
    rw [h0, totalWidth_equal, hdl, hs, Nat.zero_add]
    exact hle
  · show _ * _ ≤ _
    rw [ha]; exact hcm
  · refine ⟨fun i hi => by simp at hi, ?_⟩
    show MemAt _ id (0 + A.ty.sizeOf (A.dec (A.enc md) 0)) _
    rw [h0]
    refine memAt_equal fun i hi => ?_
    rw [hs, Nat.zero_add, List.getElem_dropLast]
    exact h.mem i (by simp at hi ⊢; omega)
  · show BlockOk _ _ _ A.ALIGN
    rw [ha]; exact h.block

/-- What the destructor loop does with the shifted records, from the second one on. -/
theorem UVec.dropLoop_shifted (h : r.Holds c xs) (env : Env (Val T β)) {md : T.Meta} (hs : T.sizeOf md = r.elemSize)
    (ha : T.alignOf md = r.elemAlign) (n : Nat) : ∀ (i : Nat) (w : UVec T β), i + n + 1 = xs.length → w.heap = r.heap →
    (UVec.dropLoop c env r.ptr r.elemAlign ((List.range' (i + 1) n).map (fun i => ⟨md, i * r.elemSize⟩)) (i * r.elemSize) w).Meets
      (fun _ w' => (∀ x ∈ ((xs.drop i).take n).map (unsized md), env.dropPanics x = false) ∧
        w' = { w with drops := w.drops ++ ((xs.drop i).take n).map (unsized md) })
      (fun w' => ∃ ds, StopsAt env.dropPanics (((xs.drop i).take n).map (unsized md)) ds ∧ w' = { w with drops := w.drops ++ ds })
      False := by
  have hcm := h.capMax
  have hmx := VS.max_le_isizeMax c r.elemAlign
  have hsp := h.span_ge
  induction n with
  | zero =>
    intro i w _ _
    refine .of_ok rfl ⟨by simp, by simp⟩
  | succ n ih =>
    intro i w hi hw
    have hi' : i < xs.length := by omega
    have hp : padTo r.elemAlign ((i + 1) * r.elemSize) = (i + 1) * r.elemSize :=
      padTo_of_dvd h.al.pos (Nat.dvd_mul_left_of_dvd h.sizeDvd _)
    have hle := h.mul_le (i := i + 1) (by omega)
    have hle0 : i * r.elemSize ≤ (i + 1) * r.elemSize := Nat.mul_le_mul_right _ (by omega)
    rw [List.range'_succ, List.map_cons, List.drop_eq_getElem_cons hi', List.take_succ_cons, List.map_cons]
    unfold UVec.dropLoop
    simp only
    rw [Exec.orUb_bind (VSU.uncheckedSub_eq hle0 (by omega)), Exec.get_bind,
      Exec.require_bind (by rw [hw]; exact Nat.le_trans hle0 (Nat.le_trans hle hsp)),
      Exec.orUb_bind (by rw [VSU.uncheckedPadTo_eq h.al (by omega) (by rw [hp]; omega), hp])]
    obtain ⟨ref, hr1, hr2⟩ := h.read_at hs ha hi'
    have hd := UVec.dropInPlace_eq (v := w) (env := env) (x := unsized md xs[i]) (by rw [hw]; exact hr1)
      (by rw [hw]; exact hr2)
    cases hpn : env.dropPanics (unsized md xs[i]) with
    | true =>
      rw [hpn, if_pos rfl] at hd
      rw [Exec.bind_panic hd]
      exact ⟨_, .here hpn, rfl⟩
    | false =>
      rw [hpn, if_neg (by simp)] at hd
      rw [Exec.bind_ok hd]
      refine (ih (i + 1) _ (by omega) (by exact hw)).mono ?_ ?_ id
      · rintro _ w' ⟨h1, rfl⟩
        refine ⟨?_, by simp⟩
        intro x hx
        rcases List.mem_cons.1 hx with rfl | hx
        · exact hpn
        · exact h1 x hx
      · rintro w' ⟨ds, h1, rfl⟩
        exact ⟨_, h1.later hpn, by simp⟩

/-- Dropping the vector with the shifted records: the first element is destroyed twice, the last one never. -/
theorem UVec.drop_shifted {x : List β} (h : r.Holds c (x :: xs)) (env : Env (Val T β)) {md : T.Meta} (hs : T.sizeOf md = r.elemSize)
    (ha : T.alignOf md = r.elemAlign) (cap : Nat) :
    (UVec.drop c env (UVec.shiftedVec r (x :: xs).length md cap)).Meets
      (fun _ v' => (∀ y ∈ (x :: (x :: xs).dropLast).map (unsized md), env.dropPanics y = false) ∧
        v'.drops = (x :: (x :: xs).dropLast).map (unsized md) ∧ v'.heap.block = none ∧ v'.heap.leaks = 0)
      (fun v' => StopsAt env.dropPanics ((x :: (x :: xs).dropLast).map (unsized md)) v'.drops) False := by
  have hcm := h.capMax
  have hmx := VS.max_le_isizeMax c r.elemAlign
  have hi : 0 < (x :: xs).length := by simp
  have htake : ((x :: xs).drop 0).take xs.length = (x :: xs).dropLast := by
    rw [List.dropLast_eq_take]; simp
  unfold UVec.drop
  rw [Exec.get_bind, Exec.modify_bind]
  have hr : (List.range (x :: xs).length).map (fun i => (⟨md, i * r.elemSize⟩ : Info T.Meta)) =
      ⟨md, 0⟩ :: (List.range' (0 + 1) xs.length).map (fun i => ⟨md, i * r.elemSize⟩) := by
    rw [List.range_eq_range', List.length_cons, List.range'_succ, List.map_cons, Nat.zero_mul]
  have hA : (UVec.dropLoop c env r.ptr r.elemAlign ((List.range (x :: xs).length).map (fun i => ⟨md, i * r.elemSize⟩)) 0
      { UVec.shiftedVec r (x :: xs).length md cap with elems := [], elemsCap := 0 }).Meets
      (fun _ w' => (∀ y ∈ (x :: (x :: xs).dropLast).map (unsized md), env.dropPanics y = false) ∧
        w' = ⟨r.ptr, r.cap * r.elemSize, [], 0, r.elemAlign, r.heap, (x :: (x :: xs).dropLast).map (unsized md)⟩)
      (fun v' => StopsAt env.dropPanics ((x :: (x :: xs).dropLast).map (unsized md)) v'.drops) False := by
    rw [hr]
    unfold UVec.dropLoop
    simp only
    have hp : padTo r.elemAlign 0 = 0 := padTo_zero _
    rw [Exec.orUb_bind (VSU.uncheckedSub_eq (Nat.le_refl 0) (by omega)), Exec.get_bind,
      Exec.require_bind (by exact Nat.zero_le _),
      Exec.orUb_bind (by rw [VSU.uncheckedPadTo_eq h.al (by omega) (by rw [hp]; omega), hp])]
    obtain ⟨ref, hr1, hr2⟩ := h.read_at hs ha hi
    rw [Nat.zero_mul] at hr1
    have hd := UVec.dropInPlace_eq (v := { UVec.shiftedVec r (x :: xs).length md cap with elems := [], elemsCap := 0 }) (env := env)
      (x := unsized md (x :: xs)[0]) (by exact hr1) (by exact hr2)
    have hd' : (x :: xs)[0] = x := rfl
    rw [hd'] at hd
    cases hpn : env.dropPanics (unsized md x) with
    | true =>
      rw [hpn, if_pos rfl] at hd
      rw [Exec.bind_panic hd]
      exact .here hpn
    | false =>
      rw [hpn, if_neg (by simp)] at hd
      rw [Exec.bind_ok hd]
      have := UVec.dropLoop_shifted h env hs ha xs.length 0
        { UVec.shiftedVec r (x :: xs).length md cap with
          elems := [], elemsCap := 0, drops := (UVec.shiftedVec r (x :: xs).length md cap).drops ++ [unsized md x] }
        (by simp) rfl
      rw [htake, Nat.zero_mul] at this
      refine this.mono ?_ ?_ id
      · rintro _ w' ⟨h1, rfl⟩
        refine ⟨?_, rfl⟩
        intro y hy
        rcases List.mem_cons.1 hy with rfl | hy
        · exact hpn
        · exact h1 y hy
      · rintro w' ⟨ds, h1, rfl⟩
        exact h1.later hpn
  refine hA.bind ?_
  rintro _ w ⟨h1, rfl⟩
  have hdv : r.elemAlign ∣ r.cap * r.elemSize := Nat.dvd_mul_left_of_dvd h.sizeDvd _
  show ((Exec.orUb (layoutUnchecked c (r.cap * r.elemSize) r.elemAlign) >>= _) _ : Res _ _).Meets _ _ _
  rw [Exec.orUb_bind (layoutUnchecked_eq h.al (h.al.room hdv (by omega))), Exec.get_bind]
  by_cases h0 : r.cap * r.elemSize = 0
  · have hn := h.block
    rw [h0] at hn
    rw [Exec.orUb_bind (show r.heap.deallocate r.ptr ⟨r.cap * r.elemSize, r.elemAlign⟩ = some r.heap by
      unfold Heap.deallocate; rw [if_pos h0])]
    exact ⟨h1, rfl, hn.none_of_zero, h.leaks⟩
  · rw [Exec.orUb_bind (show r.heap.deallocate r.ptr ⟨r.cap * r.elemSize, r.elemAlign⟩ = some { r.heap with block := none } by
      unfold Heap.deallocate; rw [if_neg h0, if_pos (h.block.fits (by omega))])]
    exact ⟨h1, rfl, rfl, h.leaks⟩

end Verif
