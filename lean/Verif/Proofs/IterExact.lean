import Verif.Proofs.Iter

set_option linter.unusedSectionVars false

/-!
# Iterators: what every sequence of calls returns
-/

namespace Verif

namespace ICall

/-- What has to be shown about the code of an iterator for the calls that the guard excludes: they return `wrong`, and leave
what they should. -/
structure WorksAll {I R : Type} (step : ICall → I → Option (Option R × I)) (Covers : I → Nat → Nat → Prop)
    (refs wrong : Nat → Option R) : Prop extends Works step Covers refs where
  back_sole : ∀ {it i}, Covers it i (i + 1) → ∃ it', step .nextBack it = some (wrong i, it') ∧ Covers it' i i
  nth_zero : ∀ {it i j}, Covers it i j → i < j → ∃ it', step (.nth 0) it = some (wrong i, it') ∧ Covers it' (i + 1) j
  some_wrong : ∀ {it i j k}, Covers it i j → k < j → ∃ r, wrong k = some r

/-- `nth_back` when it takes the sole element left. -/
theorem WorksAll.nthBack_sole {I R : Type} {step : ICall → I → Option (Option R × I)} {Covers : I → Nat → Nat → Prop}
    {refs wrong : Nat → Option R} (w : WorksAll step Covers refs wrong) (n : Nat) : ∀ {it i}, Covers it i (i + n + 1) →
      ∃ it', UIter.nthBackOf (step .nextBack) n it = some (wrong i, it') ∧ Covers it' i i := by
  induction n with
  | zero => intro it i hc; exact w.back_sole hc
  | succ n ih =>
    intro it i hc
    obtain ⟨it', h1, h2⟩ := w.back_lt hc (by omega) (by omega)
    obtain ⟨r, hr⟩ := w.some_ref hc (k := i + (n + 1) + 1 - 1) (by omega)
    obtain ⟨it2, h3, h4⟩ := ih (i := i) (it := it') (by rw [show i + n + 1 = i + (n + 1) + 1 - 1 by omega]; exact h2)
    refine ⟨it2, ?_, h4⟩
    rw [UIter.nthBackOf, h1, hr]
    exact h3

/-- `nth_back` when too few elements are left. -/
theorem WorksAll.nthBack_ge {I R : Type} {step : ICall → I → Option (Option R × I)} {Covers : I → Nat → Nat → Prop}
    {refs wrong : Nat → Option R} (w : WorksAll step Covers refs wrong) (n : Nat) : ∀ {it i j}, Covers it i j → j ≤ i + n →
      ∃ it' j', UIter.nthBackOf (step .nextBack) n it = some (none, it') ∧ j' ≤ i ∧ Covers it' i j' := by
  induction n with
  | zero => intro it i j hc hij; exact ⟨it, j, w.back_ge hc (by omega), by omega, hc⟩
  | succ n ih =>
    intro it i j hc hij
    by_cases h : j ≤ i
    · refine ⟨it, j, ?_, h, hc⟩
      rw [UIter.nthBackOf, w.back_ge hc h]
      rfl
    · by_cases h1 : j = i + 1
      · subst h1
        obtain ⟨it', h2, h3⟩ := w.back_sole hc
        obtain ⟨r, hr⟩ := w.some_wrong hc (k := i) (by omega)
        obtain ⟨it2, j2, h4, h5⟩ := ih h3 (by omega)
        refine ⟨it2, j2, ?_, h5⟩
        rw [UIter.nthBackOf, h2, hr]
        exact h4
      · obtain ⟨it', h2, h3⟩ := w.back_lt hc (by omega) (by omega)
        obtain ⟨r, hr⟩ := w.some_ref hc (k := j - 1) (by omega)
        obtain ⟨it2, j2, h4, h5⟩ := ih h3 (by omega)
        refine ⟨it2, j2, ?_, h5⟩
        rw [UIter.nthBackOf, h2, hr]
        exact h4

theorem WorksAll.run {I R : Type} {step : ICall → I → Option (Option R × I)} {Covers : I → Nat → Nat → Prop}
    {refs wrong : Nat → Option R} (w : WorksAll step Covers refs wrong) :
    ∀ (ks : List ICall) (it : I) (i j : Nat) (adv : Bool), Covers it i j → (adv = false → i = 0) →
      ∃ it' i' j', runCalls step ks it = some (outputs refs wrong (specRun ks (List.range' i (j - i))).1
          (faults ks adv (List.range' i (j - i))), it') ∧
        (specRun ks (List.range' i (j - i))).2 = List.range' i' (j' - i') ∧ Covers it' i' j'
  | [], it, i, j, adv, hc, _ => ⟨it, i, j, rfl, rfl, hc⟩
  | k :: ks, it, i, j, adv, hc, ha => by
    have key : ∀ (r : Option Nat) (it' : I) (i' j' : Nat), k.spec (List.range' i (j - i)) = (r, List.range' i' (j' - i')) →
        step k it = some (r.bind (if k.fault adv (List.range' i (j - i)) then wrong else refs), it') → Covers it' i' j' →
        ((adv || k.movesFront) = false → i' = 0) →
        ∃ it' i' j', runCalls step (k :: ks) it = some (outputs refs wrong (specRun (k :: ks) (List.range' i (j - i))).1
            (faults (k :: ks) adv (List.range' i (j - i))), it') ∧
          (specRun (k :: ks) (List.range' i (j - i))).2 = List.range' i' (j' - i') ∧ Covers it' i' j' := by
      intro r it' i' j' h1 h2 h3 h4
      obtain ⟨it2, i2, j2, h5, h6, h7⟩ := WorksAll.run w ks it' i' j' _ h3 h4
      refine ⟨it2, i2, j2, ?_, ?_, h7⟩
      · unfold runCalls specRun faults outputs
        rw [h2, h1]
        simp only [Option.bind_eq_bind, Option.bind_some, h5]
        rfl
      · unfold specRun
        rw [h1]; exact h6
    cases k with
    | next =>
      by_cases hij : i < j
      · obtain ⟨it', h1, h2⟩ := w.next_lt hc hij
        exact key _ it' (i + 1) j (spec_next_lt hij) h1 h2 (by simp [movesFront])
      · refine key none it i j ?_ (w.next_ge hc (by omega)) hc (by simp [movesFront])
        rw [show j - i = 0 by omega]; rfl
    | nextBack =>
      by_cases hij : i < j
      · by_cases hf : nextBack.fault adv (List.range' i (j - i)) = true
        · have h0 : j = i + 1 := by simp [fault] at hf; omega
          obtain ⟨it', h1, h2⟩ := w.back_sole (h0 ▸ hc)
          refine key _ it' i (j - 1) (spec_nextBack_lt hij) ?_ (by rw [h0]; exact h2) (by simpa [movesFront] using ha)
          rw [h1, if_pos hf, Option.bind_some, show j - 1 = i by omega]
        · have hg : i = 0 ∨ i + 1 < j := by
            simp only [fault, List.length_range', Bool.and_eq_true, beq_iff_eq, not_and] at hf
            cases adv with
            | false => exact .inl (ha rfl)
            | true => have := hf rfl; omega
          obtain ⟨it', h1, h2⟩ := w.back_lt hc hij hg
          refine key _ it' i (j - 1) (spec_nextBack_lt hij) ?_ h2 (by simpa [movesFront] using ha)
          rw [h1, if_neg hf]; rfl
      · refine key none it i j ?_ (w.back_ge hc (by omega)) hc (by simpa [movesFront] using ha)
        rw [show j - i = 0 by omega]; rfl
    | nth n =>
      by_cases hij : i + n < j
      · by_cases hf : (nth n).fault adv (List.range' i (j - i)) = true
        · have h0 : n = 0 := by simp [fault] at hf; omega
          subst h0
          obtain ⟨it', h1, h2⟩ := w.nth_zero hc (by omega)
          refine key (some i) it' (i + 1) j ?_ ?_ h2 (by simp [movesFront])
          · rw [spec_nth, if_pos hij]; rfl
          · rw [h1, if_pos hf]; rfl
        · have hg : i = 0 ∨ 0 < n := by
            simp only [fault, Bool.and_eq_true, beq_iff_eq, not_and] at hf
            cases adv with
            | false => exact .inl (ha rfl)
            | true => have := hf rfl; omega
          obtain ⟨it', h1, h2⟩ := w.nth_lt hc hij hg
          refine key (some (i + n)) it' (i + (n + 1)) j ?_ ?_ h2 (by simp [movesFront])
          · rw [spec_nth, if_pos hij]
          · rw [h1, if_neg hf]; rfl
      · obtain ⟨it', h1, h2⟩ := w.nth_ge hc (n := n) (by omega)
        refine key none it' (i + (n + 1)) j ?_ h1 h2 (by simp [movesFront])
        rw [spec_nth, if_neg hij]
    | nthBack n =>
      by_cases hij : i + n < j
      · by_cases hf : (nthBack n).fault adv (List.range' i (j - i)) = true
        · have h0 : j = i + n + 1 := by simp [fault] at hf; omega
          obtain ⟨it', h1, h2⟩ := w.nthBack_sole n (h0 ▸ hc)
          refine key (some (j - n - 1)) it' i i ?_ ?_ h2 (by simpa [movesFront] using ha)
          · rw [spec_nthBack, if_pos hij, show j - (n + 1) - i = i - i by omega]
          · rw [w.back_iter, h1, if_pos hf, Option.bind_some, show j - n - 1 = i by omega]
        · have hg : i = 0 ∨ i + n + 1 < j := by
            simp only [fault, List.length_range', Bool.and_eq_true, beq_iff_eq, not_and] at hf
            cases adv with
            | false => exact .inl (ha rfl)
            | true => have := hf rfl; omega
          obtain ⟨it', h1, h2⟩ := w.nthBack_lt n hc hij hg
          refine key (some (j - n - 1)) it' i (j - n - 1) ?_ ?_ h2 (by simpa [movesFront] using ha)
          · rw [spec_nthBack, if_pos hij]; congr 2
          · rw [w.back_iter, h1, if_neg hf]; rfl
      · obtain ⟨it', j', h1, h2, h3⟩ := w.nthBack_ge n hc (by omega)
        refine key none it' i j' ?_ ((w.back_iter n it).trans h1) h3 (by simpa [movesFront] using ha)
        rw [spec_nthBack, if_neg hij, show j - (n + 1) - i = 0 by omega, show j' - i = 0 by omega]

theorem specRun_length (ks : List ICall) (l : List Nat) : (specRun ks l).1.length = ks.length := by
  induction ks generalizing l with
  | nil => rfl
  | cons k ks ih => simp [specRun, ih]

theorem faults_length (ks : List ICall) (adv : Bool) (l : List Nat) : (faults ks adv l).length = ks.length := by
  induction ks generalizing adv l with
  | nil => rfl
  | cons k ks ih => simp [faults, ih]

theorem spec_lt {n : Nat} (k : ICall) {l : List Nat} (h : ∀ a ∈ l, a < n) :
    (∀ a, (k.spec l).1 = some a → a < n) ∧ ∀ a ∈ (k.spec l).2, a < n := by
  rcases spec_perm k l with h1 | ⟨b, h1, h2⟩
  · refine ⟨fun a ha => h a (h1.subset ?_), fun a ha => h a (h1.subset ?_)⟩ <;> simp [ha]
  · refine ⟨fun a ha => h a (h2.subset ?_), fun a ha => h a (h2.subset ?_)⟩
    · rw [h1] at ha; cases ha; simp
    · simp [ha]

/-- Only the references to elements of the vector matter. -/
theorem outputs_congr {R : Type} {n : Nat} {refs refs' wrong wrong' : Nat → Option R} (h1 : ∀ i, i < n → refs i = refs' i)
    (h2 : ∀ i, i < n → wrong i = wrong' i) (ks : List ICall) (adv : Bool) {l : List Nat} (h : ∀ a ∈ l, a < n) :
    outputs refs wrong (specRun ks l).1 (faults ks adv l) = outputs refs' wrong' (specRun ks l).1 (faults ks adv l) := by
  induction ks generalizing adv l with
  | nil => rfl
  | cons k ks ih =>
    obtain ⟨h3, h4⟩ := spec_lt k h
    simp only [specRun, faults, outputs, List.zipWith_cons_cons]
    congr 1
    · cases hk : (k.spec l).1 with
      | none => rfl
      | some a => simp only [Option.bind_some]; split <;> simp [h1 a (h3 a hk), h2 a (h3 a hk)]
    · exact ih _ h4

end ICall

namespace UVec
variable {T : UTy} {β : Type} [Inhabited β] {c : Cfg} {v : UVec T β} {xs : List (Val T β)}

theorem ref_zero (h : v.Holds c xs) {i : Nat} (hi : i < xs.length) :
    VSU.uncheckedSub c (at_ v xs i + xs[i].size) 0 = some (at_ v xs i + xs[i].size) ∧
      mkRef v.heap v.ptr 0 xs[i].md = some ⟨v.ptr, 0, xs[i].md⟩ := by
  obtain ⟨h1, h2, _⟩ := at_bounds h hi
  have h3 := h.elem_le i hi
  have h4 := h.cap
  have h5 := h.span
  have hd : xs[i].align ∣ v.align := h.elemAl _ (List.getElem_mem hi)
  refine ⟨by rw [VSU.uncheckedSub_eq (by omega) (by omega)]; rfl, mkRef_eq ?_ ?_⟩
  · show 0 + xs[i].size ≤ _
    omega
  · exact Nat.dvd_trans hd h.block.2.1

/-- The iterator, all calls. -/
theorem iter_worksAll (h : v.Holds c xs) :
    ICall.WorksAll (ICall.unaligned c v.heap) (Covers v xs) (fun i => getUnchecked c v i)
      (fun i => (getUnchecked c v i).map (fun r => ⟨r.base, 0, r.md⟩)) where
  toWorks := iter_works h
  back_sole {it i} hc := by
    have hi : i < xs.length := by have := hc.le; omega
    refine ⟨{ it with infos := [] }, ?_, ⟨by omega, ?_, hc.ptr, hc.align, fun _ => by omega⟩⟩
    · show it.nextBack c v.heap = _
      unfold UIter.nextBack
      have h1 : it.infos = [rec_ v xs i hi] := by
        rw [hc.cons h (by omega), List.drop_eq_nil_of_le (by simp; omega)]
      obtain ⟨h2, h3⟩ := ref_zero h hi
      simp only [h1, List.getLast?_singleton, List.dropLast_singleton, List.getLast?_nil, rec_, hc.ptr, h2, h3, get_at h hi,
        Option.bind_eq_bind, Option.bind_some]
      rfl
    · rw [List.drop_eq_nil_of_le (by simp; omega)]
  nth_zero {it i j} hc hij := by
    have hi : i < xs.length := by have := hc.le; omega
    refine ⟨⟨(v.elems.take j).drop (i + 1), v.ptr, at_ v xs (i + 1), v.align⟩, ?_, ⟨hc.le, rfl, rfl, rfl, fun _ => rfl⟩⟩
    show it.nth c v.heap 0 = _
    unfold UIter.nth
    obtain ⟨h2, h3⟩ := ref_zero h hi
    rw [hc.cons h hij]
    simp only [rec_, hc.ptr, hc.align, h2, h3, get_at h hi, (at_bounds h hi).2.2, Option.bind_eq_bind, Option.bind_some]
    rfl
  some_wrong {it i j k} hc hk := by
    have hi : k < xs.length := by have := hc.le; omega
    exact ⟨_, by rw [get_at h hi]; rfl⟩

theorem Covers.last_sole (h : v.Holds c xs) {it : UIter T} {i : Nat} (hc : Covers v xs it i (i + 1)) :
    it.last c v.heap = some ((getUnchecked c v i).map (fun r => ⟨r.base, 0, r.md⟩)) := by
  have hl := hc.len h
  unfold UIter.len at hl
  unfold UIter.last
  rw [hl]
  obtain ⟨it', h1, _⟩ := (iter_worksAll h).nth_zero hc (by omega)
  rw [show i + 1 - i = 0 + 1 by omega]
  show Option.map _ (it.nth c v.heap 0) = _
  rw [show it.nth c v.heap 0 = _ from h1]
  rfl

end UVec

namespace AVec
variable {A : ATy} {β : Type} [Inhabited β] {c : Cfg} {v : AVec A β} {xs : List (Val A.ty β)}

theorem ref_zero (hA : A.Fits c) (hW : A.Within) (h : v.Holds c xs) {i : Nat} (hi : i < xs.length) :
    VS.uncheckedSub c A.ALIGN (at_ v xs i + xs[i].size) 0 = some (at_ v xs i + xs[i].size) ∧
      mkRef v.heap v.ptr 0 (A.dec (A.enc xs[i].md) (at_ v xs i + xs[i].size)) =
        some ⟨v.ptr, 0, A.dec (A.enc xs[i].md) (at_ v xs i + xs[i].size)⟩ := by
  have h1 := at_le h (i + 1)
  rw [← at_succ hi] at h1
  have h3 := h.elem_le i hi
  have h4 := h.cap
  have h5 := h.span
  have h6 := hW xs[i].md (at_ v xs i + xs[i].size) (Nat.le_add_left _ _)
  refine ⟨by rw [VS.uncheckedSub_eq (by omega) (by omega)]; rfl, mkRef_eq ?_ ?_⟩
  · unfold at_ at h6 ⊢
    omega
  · exact Nat.dvd_trans (hA.dvd _) h.block.2.1

/-- The iterator, all calls. -/
theorem iter_worksAll (hA : A.Fits c) (hW : A.Within) (h : v.Holds c xs) :
    ICall.WorksAll (ICall.aligned c v.heap) (Covers v xs) (fun i => getUnchecked c v i)
      (fun i => (getUnchecked c v i).map (fun r => ⟨r.base, 0, A.dec (A.enc r.md) (r.off + A.ty.sizeOf r.md)⟩)) where
  toWorks := iter_works hA h
  back_sole {it i} hc := by
    have hi : i < xs.length := by have := hc.le; omega
    refine ⟨{ it with infos := [] }, ?_, ⟨by omega, ?_, hc.ptr, fun _ => by omega⟩⟩
    · show it.nextBack c v.heap = _
      unfold AIter.nextBack
      have h1 : it.infos = [rec_ v xs i hi] := by
        rw [hc.cons h (by omega), List.drop_eq_nil_of_le (by simp; omega)]
      obtain ⟨h2, h3⟩ := ref_zero hA hW h hi
      simp only [h1, List.getLast?_singleton, List.dropLast_singleton, List.getLast?_nil, rec_, hc.ptr, h2, h3,
        get_at hA h hi, Option.bind_eq_bind, Option.bind_some]
      rfl
    · rw [List.drop_eq_nil_of_le (by simp; omega)]
  nth_zero {it i j} hc hij := by
    have hi : i < xs.length := by have := hc.le; omega
    refine ⟨⟨(v.elems.take j).drop (i + 1), v.ptr, at_ v xs (i + 1)⟩, ?_, ⟨hc.le, rfl, rfl, fun _ => rfl⟩⟩
    show it.nth c v.heap 0 = _
    unfold AIter.nth
    obtain ⟨h2, h3⟩ := ref_zero hA hW h hi
    rw [hc.cons h hij]
    simp only [rec_, hc.ptr, h2, h3, get_at hA h hi, Option.bind_eq_bind, Option.bind_some]
    rw [← at_succ hi]
    rfl
  some_wrong {it i j k} hc hk := by
    have hi : k < xs.length := by have := hc.le; omega
    exact ⟨_, by rw [get_at hA h hi]; rfl⟩

theorem Covers.last_sole (hA : A.Fits c) (hW : A.Within) (h : v.Holds c xs) {it : AIter A} {i : Nat}
    (hc : Covers v xs it i (i + 1)) : it.last c v.heap =
      some ((getUnchecked c v i).map (fun r => ⟨r.base, 0, A.dec (A.enc r.md) (r.off + A.ty.sizeOf r.md)⟩)) := by
  have hl := hc.len h
  unfold AIter.len at hl
  unfold AIter.last
  rw [hl]
  obtain ⟨it', h1, _⟩ := (iter_worksAll hA hW h).nth_zero hc (by omega)
  rw [show i + 1 - i = 0 + 1 by omega]
  show Option.map _ (it.nth c v.heap 0) = _
  rw [show it.nth c v.heap 0 = _ from h1]
  rfl

end AVec
end Verif
