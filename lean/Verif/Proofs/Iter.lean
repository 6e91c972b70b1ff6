import Verif.Spec.Iter
import Verif.Proofs.UOps
import Verif.Proofs.AOps

set_option linter.unusedSectionVars false

/-!
# Iterators
-/

namespace Verif

/-! ## The queue of indices, as an interval -/

namespace ICall

theorem spec_next_lt {i j : Nat} (h : i < j) : next.spec (List.range' i (j - i)) = (some i, List.range' (i + 1) (j - (i + 1))) := by
  obtain ⟨n, rfl⟩ : ∃ n, j = i + (n + 1) := ⟨j - i - 1, by omega⟩
  rw [show i + (n + 1) - i = n + 1 by omega, show i + (n + 1) - (i + 1) = n by omega, List.range'_succ]
  rfl

theorem spec_nextBack_lt {i j : Nat} (h : i < j) :
    nextBack.spec (List.range' i (j - i)) = (some (j - 1), List.range' i (j - 1 - i)) := by
  obtain ⟨n, rfl⟩ : ∃ n, j = i + (n + 1) := ⟨j - i - 1, by omega⟩
  rw [show i + (n + 1) - i = n + 1 by omega, show i + (n + 1) - 1 = i + n by omega, show i + n - i = n by omega,
    List.range'_concat]
  simp [spec]

theorem spec_nth {i j n : Nat} : (nth n).spec (List.range' i (j - i)) =
    (if i + n < j then some (i + n) else none, List.range' (i + (n + 1)) (j - (i + (n + 1)))) := by
  show ((List.drop n _).head?, List.drop (n + 1) _) = _
  rw [List.drop_range', List.drop_range', Nat.mul_one, Nat.mul_one, show j - i - (n + 1) = j - (i + (n + 1)) by omega]
  congr 1
  split
  · obtain ⟨m, hm⟩ : ∃ m, j - i - n = m + 1 := ⟨j - i - n - 1, by omega⟩
    rw [hm, List.range'_succ]; rfl
  · rw [show j - i - n = 0 by omega]; rfl

theorem spec_nthBack {i j n : Nat} : (nthBack n).spec (List.range' i (j - i)) =
    (if i + n < j then some (j - n - 1) else none, List.range' i (j - (n + 1) - i)) := by
  show ((List.take _ _).getLast?, List.take _ _) = _
  rw [List.length_range', List.take_range'_of_length_ge (Nat.sub_le _ _), List.take_range'_of_length_ge (Nat.sub_le _ _),
    show j - i - (n + 1) = j - (n + 1) - i by omega]
  congr 1
  split
  · obtain ⟨m, hm⟩ : ∃ m, j - i - n = m + 1 := ⟨j - i - n - 1, by omega⟩
    rw [hm, List.range'_concat, List.getLast?_concat]
    congr 1; omega
  · rw [show j - i - n = 0 by omega]; rfl

/-- What has to be shown about the code of an iterator: `Covers it i j` says that the elements `i`, …, `j - 1` are left, and
`refs k` is the reference to element `k`. -/
structure Works {I R : Type} (step : ICall → I → Option (Option R × I)) (Covers : I → Nat → Nat → Prop) (refs : Nat → Option R) :
    Prop where
  next_lt : ∀ {it i j}, Covers it i j → i < j → ∃ it', step .next it = some (refs i, it') ∧ Covers it' (i + 1) j
  next_ge : ∀ {it i j}, Covers it i j → j ≤ i → step .next it = some (none, it)
  back_lt : ∀ {it i j}, Covers it i j → i < j → (i = 0 ∨ i + 1 < j) →
    ∃ it', step .nextBack it = some (refs (j - 1), it') ∧ Covers it' i (j - 1)
  back_ge : ∀ {it i j}, Covers it i j → j ≤ i → step .nextBack it = some (none, it)
  nth_lt : ∀ {it i j n}, Covers it i j → i + n < j → (i = 0 ∨ 0 < n) →
    ∃ it', step (.nth n) it = some (refs (i + n), it') ∧ Covers it' (i + n + 1) j
  nth_ge : ∀ {it i j n}, Covers it i j → j ≤ i + n →
    ∃ it', step (.nth n) it = some (none, it') ∧ Covers it' (i + (n + 1)) j
  back_iter : ∀ n it, step (.nthBack n) it = UIter.nthBackOf (step .nextBack) n it
  some_ref : ∀ {it i j k}, Covers it i j → k < j → ∃ r, refs k = some r

/-- `nth_back` while enough elements are left. -/
theorem Works.nthBack_lt {I R : Type} {step : ICall → I → Option (Option R × I)} {Covers : I → Nat → Nat → Prop}
    {refs : Nat → Option R} (w : Works step Covers refs) (n : Nat) : ∀ {it i j}, Covers it i j → i + n < j →
      (i = 0 ∨ i + n + 1 < j) →
      ∃ it', UIter.nthBackOf (step .nextBack) n it = some (refs (j - n - 1), it') ∧ Covers it' i (j - n - 1) := by
  induction n with
  | zero => intro it i j hc hij hg; exact w.back_lt hc hij hg
  | succ n ih =>
    intro it i j hc hij hg
    obtain ⟨it', h1, h2⟩ := w.back_lt hc (by omega) (by omega)
    obtain ⟨r, hr⟩ := w.some_ref hc (k := j - 1) (by omega)
    obtain ⟨it2, h3, h4⟩ := ih h2 (by omega) (by omega)
    rw [show j - 1 - n - 1 = j - (n + 1) - 1 by omega] at h3 h4
    refine ⟨it2, ?_, h4⟩
    rw [UIter.nthBackOf, h1, hr]
    exact h3

/-- `nth_back` when too few elements are left: all of them are taken. -/
theorem Works.nthBack_ge {I R : Type} {step : ICall → I → Option (Option R × I)} {Covers : I → Nat → Nat → Prop}
    {refs : Nat → Option R} (w : Works step Covers refs) (n : Nat) : ∀ {it i j}, Covers it i j → j ≤ i + n →
      (i = 0 ∨ j ≤ i) →
      ∃ it' j', UIter.nthBackOf (step .nextBack) n it = some (none, it') ∧ j' ≤ i ∧ Covers it' i j' := by
  induction n with
  | zero => intro it i j hc hij hg; exact ⟨it, j, w.back_ge hc (by omega), by omega, hc⟩
  | succ n ih =>
    intro it i j hc hij hg
    by_cases h : j ≤ i
    · refine ⟨it, j, ?_, h, hc⟩
      rw [UIter.nthBackOf, w.back_ge hc h]
      rfl
    · obtain ⟨it', h1, h2⟩ := w.back_lt hc (by omega) (by omega)
      obtain ⟨r, hr⟩ := w.some_ref hc (k := j - 1) (by omega)
      obtain ⟨it2, j2, h3, h4⟩ := ih h2 (by omega) (by omega)
      refine ⟨it2, j2, ?_, h4⟩
      rw [UIter.nthBackOf, h1, hr]
      exact h3

theorem Works.run {I R : Type} {step : ICall → I → Option (Option R × I)} {Covers : I → Nat → Nat → Prop} {refs : Nat → Option R}
    (w : Works step Covers refs) : ∀ (ks : List ICall) (it : I) (i j : Nat) (adv : Bool), Covers it i j →
      (adv = false → i = 0) → OkRun ks adv (List.range' i (j - i)) →
      ∃ it' i' j', runCalls step ks it = some ((specRun ks (List.range' i (j - i))).1.map ((·.bind refs)), it') ∧
        (specRun ks (List.range' i (j - i))).2 = List.range' i' (j' - i') ∧ Covers it' i' j'
  | [], it, i, j, adv, hc, _, _ => ⟨it, i, j, rfl, rfl, hc⟩
  | k :: ks, it, i, j, adv, hc, ha, ho => by
    obtain ⟨hk, ho⟩ := ho
    have key : ∀ (r : Option Nat) (it' : I) (i' j' : Nat), k.spec (List.range' i (j - i)) = (r, List.range' i' (j' - i')) →
        step k it = some (r.bind refs, it') → Covers it' i' j' → ((adv || k.movesFront) = false → i' = 0) →
        ∃ it' i' j', runCalls step (k :: ks) it = some ((specRun (k :: ks) (List.range' i (j - i))).1.map ((·.bind refs)), it') ∧
          (specRun (k :: ks) (List.range' i (j - i))).2 = List.range' i' (j' - i') ∧ Covers it' i' j' := by
      intro r it' i' j' h1 h2 h3 h4
      rw [h1] at ho
      obtain ⟨it2, i2, j2, h5, h6, h7⟩ := Works.run w ks it' i' j' _ h3 h4 ho
      refine ⟨it2, i2, j2, ?_, ?_, h7⟩
      · unfold runCalls specRun
        rw [h2, h1]
        simp only [Option.bind_eq_bind, Option.bind_some, h5]
        rfl
      · unfold specRun
        rw [h1]; exact h6
    cases k with
    | next =>
      by_cases hij : i < j
      · obtain ⟨it', h1, h2⟩ := w.next_lt hc hij
        refine key _ it' (i + 1) j (spec_next_lt hij) h1 h2 ?_
        simp [movesFront]
      · refine key none it i j ?_ (w.next_ge hc (by omega)) hc (by simp [movesFront])
        rw [show j - i = 0 by omega]; rfl
    | nextBack =>
      by_cases hij : i < j
      · have hg : i = 0 ∨ i + 1 < j := by
          rcases hk with h | h
          · exact .inl (ha h)
          · right; simp at h; omega
        obtain ⟨it', h1, h2⟩ := w.back_lt hc hij hg
        refine key _ it' i (j - 1) (spec_nextBack_lt hij) h1 h2 ?_
        simpa [movesFront] using ha
      · refine key none it i j ?_ (w.back_ge hc (by omega)) hc (by simpa [movesFront] using ha)
        rw [show j - i = 0 by omega]; rfl
    | nth n =>
      by_cases hij : i + n < j
      · have hg : i = 0 ∨ 0 < n := by
          rcases hk with h | h | h
          · exact .inl (ha h)
          · right; omega
          · have := congrArg List.length h; simp at this; omega
        obtain ⟨it', h1, h2⟩ := w.nth_lt hc hij hg
        refine key (some (i + n)) it' (i + (n + 1)) j ?_ h1 h2 (by simp [movesFront])
        rw [spec_nth, if_pos hij]
      · obtain ⟨it', h1, h2⟩ := w.nth_ge hc (n := n) (by omega)
        refine key none it' (i + (n + 1)) j ?_ h1 h2 (by simp [movesFront])
        rw [spec_nth, if_neg hij]
    | nthBack n =>
      have hg : i = 0 ∨ i + n + 1 < j ∨ j ≤ i := by
        rcases hk with h | h | h
        · exact .inl (ha h)
        · right; left; simp at h; omega
        · have := congrArg List.length h; simp at this; omega
      by_cases hij : i + n < j
      · obtain ⟨it', h1, h2⟩ := w.nthBack_lt n hc hij (by omega)
        refine key (some (j - n - 1)) it' i (j - n - 1) ?_ ((w.back_iter n it).trans h1) h2 (by simpa [movesFront] using ha)
        rw [spec_nthBack, if_pos hij]
        congr 2
      · obtain ⟨it', j', h1, h2, h3⟩ := w.nthBack_ge n hc (by omega) (by omega)
        refine key none it' i j' ?_ ((w.back_iter n it).trans h1) h3 (by simpa [movesFront] using ha)
        rw [spec_nthBack, if_neg hij, show j - (n + 1) - i = 0 by omega, show j' - i = 0 by omega]

theorem Works.congr {I R : Type} {step : ICall → I → Option (Option R × I)} {Covers : I → Nat → Nat → Prop}
    {refs refs' : Nat → Option R} (w : Works step Covers refs) {n : Nat} (hn : ∀ {it i j}, Covers it i j → j ≤ n)
    (hr : ∀ i, i < n → refs i = refs' i) : Works step Covers refs' where
  next_lt {it i j} hc hij := by rw [← hr i (by have := hn hc; omega)]; exact w.next_lt hc hij
  next_ge := w.next_ge
  back_lt {it i j} hc hij hg := by rw [← hr (j - 1) (by have := hn hc; omega)]; exact w.back_lt hc hij hg
  back_ge := w.back_ge
  nth_lt {it i j n} hc hij hg := by rw [← hr (i + n) (by have := hn hc; omega)]; exact w.nth_lt hc hij hg
  nth_ge := w.nth_ge
  back_iter := w.back_iter
  some_ref {it i j k} hc hk := by rw [← hr k (by have := hn hc; omega)]; exact w.some_ref hc hk

/-! Some sequences of calls. -/

theorem specRun_next (k : Nat) (i n : Nat) : (specRun (List.replicate k next) (List.range' i (n - i))) =
    ((List.range' i k).map (fun a => if a < n then some a else none), List.range' (i + k) (n - (i + k))) := by
  induction k generalizing i with
  | zero => simp [specRun]
  | succ k ih =>
    rw [List.replicate_succ, specRun, List.range'_succ, List.map_cons]
    by_cases h : i < n
    · rw [spec_next_lt h]
      simp only [ih, if_pos h]
      rw [show i + 1 + k = i + (k + 1) by omega]
    · rw [show n - i = 0 by omega]
      have h0 : next.spec (List.range' i 0) = (none, List.range' (i + 1) (n - (i + 1))) := by
        rw [show n - (i + 1) = 0 by omega]; rfl
      rw [h0]
      simp only [ih, if_neg h]
      rw [show i + 1 + k = i + (k + 1) by omega]

theorem specRun_back (k n : Nat) : (specRun (List.replicate k nextBack) (List.range n)) =
    ((List.range k).map (fun a => if a < n then some (n - 1 - a) else none), List.range (n - k)) := by
  induction k generalizing n with
  | zero => simp [specRun]
  | succ k ih =>
    rw [List.replicate_succ, specRun, List.range_succ_eq_map, List.map_cons, List.map_map]
    cases n with
    | zero =>
      have := ih 0
      simp only [List.range_zero] at this
      simp [spec, this]
    | succ n =>
      have h0 : nextBack.spec (List.range (n + 1)) = (some n, List.range n) := by
        rw [List.range_succ]; simp [spec]
      rw [h0, ih]
      simp only [Nat.zero_lt_succ, if_true, Nat.add_sub_cancel, Nat.sub_zero, Prod.mk.injEq, List.cons.injEq, true_and]
      refine ⟨?_, by rw [show n + 1 - (k + 1) = n - k by omega]⟩
      apply List.map_congr_left
      intro a _
      simp only [Function.comp, Nat.succ_eq_add_one, Nat.add_lt_add_iff_right]
      split
      · congr 1; omega
      · rfl

theorem okRun_next (k : Nat) (adv : Bool) (l : List Nat) : OkRun (List.replicate k next) adv l := by
  induction k generalizing adv l with
  | zero => trivial
  | succ k ih => exact ⟨trivial, ih _ _⟩

theorem okRun_back (k : Nat) (l : List Nat) : OkRun (List.replicate k nextBack) false l := by
  induction k generalizing l with
  | zero => trivial
  | succ k ih => exact ⟨.inl rfl, ih _⟩

theorem okRun_append {ks ls : List ICall} {adv : Bool} {l : List Nat} (h : OkRun ks adv l)
    (h' : ∀ adv', OkRun ls adv' (specRun ks l).2) : OkRun (ks ++ ls) adv l := by
  induction ks generalizing adv l with
  | nil => exact h' adv
  | cons k ks ih => exact ⟨h.1, ih h.2 h'⟩

/-- With `next` and `next_back` only: what came out in front, what is left, and what came out at the back, reversed, make up
the whole. -/
theorem specRun_split (ks : List ICall) (hk : ∀ k ∈ ks, k = next ∨ k = nextBack) (l : List Nat) :
    fronts ks (specRun ks l).1 ++ (specRun ks l).2 ++ (backs ks (specRun ks l).1).reverse = l := by
  induction ks generalizing l with
  | nil => simp [specRun, fronts, backs]
  | cons k ks ih =>
    have ih := fun l => ih (fun k h => hk k (List.mem_cons_of_mem _ h)) l
    rcases hk k List.mem_cons_self with rfl | rfl
    · cases l with
      | nil =>
        have := ih []
        simpa [specRun, fronts, backs, spec] using this
      | cons a l =>
        have := ih l
        simpa [specRun, fronts, backs, spec] using this
    · rcases List.eq_nil_or_concat l with rfl | ⟨l', a, rfl⟩
      · have := ih []
        simpa [specRun, fronts, backs, spec] using this
      · have := ih l'
        simp only [specRun, spec, List.concat_eq_append, List.getLast?_concat, List.dropLast_concat, fronts, backs, List.reverse_cons]
        rw [← List.append_assoc, this]

/-! The indices that a queue returns are distinct, and come from the queue. -/

theorem spec_perm (k : ICall) (l : List Nat) : ((k.spec l).1.toList ++ (k.spec l).2).Sublist l ∨
    ∃ a, (k.spec l).1 = some a ∧ ((k.spec l).2 ++ [a]).Sublist l := by
  cases k with
  | next => left; cases l <;> simp [spec]
  | nextBack =>
    rcases List.eq_nil_or_concat l with rfl | ⟨l', a, rfl⟩
    · left; simp [spec]
    · right; exact ⟨a, by simp [spec], by simp [spec]⟩
  | nth n =>
    left
    unfold spec
    dsimp only
    have : (l.drop n).head?.toList ++ l.drop (n + 1) = l.drop n := by
      rw [← List.drop_drop]
      cases l.drop n <;> simp
    rw [this]
    exact List.drop_sublist _ _
  | nthBack n =>
    unfold spec
    dsimp only
    by_cases hn : n < l.length
    · right
      have h1 : l.take (l.length - n) = l.take (l.length - (n + 1)) ++ [l[l.length - (n + 1)]] := by
        rw [show l.length - n = l.length - (n + 1) + 1 by omega, List.take_succ_eq_append_getElem (by omega)]
      refine ⟨l[l.length - (n + 1)], by rw [h1, List.getLast?_concat], ?_⟩
      rw [← h1]
      exact List.take_sublist _ _
    · left
      rw [show l.length - n = 0 by omega, show l.length - (n + 1) = 0 by omega]
      simp

theorem spec_nodup (k : ICall) {l : List Nat} (h : l.Nodup) : ((k.spec l).1.toList ++ (k.spec l).2).Nodup ∧
    ∀ a ∈ (k.spec l).1.toList ++ (k.spec l).2, a ∈ l := by
  rcases spec_perm k l with h1 | ⟨a, h1, h2⟩
  · exact ⟨h1.nodup h, fun a ha => h1.subset ha⟩
  · rw [h1]
    have h := h2.nodup h
    simp only [List.nodup_append, Option.toList_some, List.cons_append, List.nil_append, List.nodup_cons] at h ⊢
    refine ⟨⟨fun h3 => h.2.2 a h3 a (by simp) rfl, h.1⟩, ?_⟩
    intro b hb
    refine h2.subset ?_
    simp at hb ⊢
    exact hb.symm

/-- No index is returned twice, and none that is still left. -/
theorem specRun_nodup (ks : List ICall) {l : List Nat} (h : l.Nodup) :
    ((specRun ks l).1.filterMap id ++ (specRun ks l).2).Nodup ∧
    ∀ a ∈ (specRun ks l).1.filterMap id ++ (specRun ks l).2, a ∈ l := by
  induction ks generalizing l with
  | nil => exact ⟨by simpa [specRun] using h, by simp [specRun]⟩
  | cons k ks ih =>
    obtain ⟨h1, h2⟩ := spec_nodup k h
    have h3 : (k.spec l).2.Nodup := (List.nodup_append.1 h1).2.1
    obtain ⟨h4, h5⟩ := ih h3
    unfold specRun
    cases hk : (k.spec l).1 with
    | none =>
      simp only [List.filterMap_cons, id]
      exact ⟨h4, fun a ha => h2 a (by simp [h5 a ha])⟩
    | some b =>
      rw [hk] at h1 h2
      simp only [Option.toList_some, List.cons_append, List.nil_append, List.nodup_cons] at h1
      simp only [List.filterMap_cons, id, List.cons_append, List.nodup_cons]
      refine ⟨⟨fun hb => h1.1 (h5 b hb), h4⟩, ?_⟩
      intro a ha
      rcases List.mem_cons.1 ha with rfl | ha
      · exact h2 a (by simp)
      · exact h2 a (by simp [h5 a ha])

end ICall

/-! ## dynamically aligned elements -/

namespace UVec
variable {T : UTy} {β : Type} [Inhabited β] {G : Prop} {c : Cfg} {v : UVec T β} {xs : List (Val T β)}

/-- Where element `i` starts. -/
def at_ (v : UVec T β) (xs : List (Val T β)) (i : Nat) : Nat := totalWidth (padTo v.align) (xs.take i)

/-- The record of element `i`. -/
def rec_ (v : UVec T β) (xs : List (Val T β)) (i : Nat) (h : i < xs.length) : Info T.Meta := ⟨xs[i].md, at_ v xs i + xs[i].size⟩

/-- The elements `i`, …, `j - 1` are left. -/
structure Covers (v : UVec T β) (xs : List (Val T β)) (it : UIter T) (i j : Nat) : Prop where
  le : j ≤ xs.length
  infos : it.infos = (v.elems.take j).drop i
  ptr : it.ptr = v.ptr
  align : it.align = v.align
  start : i < j → it.startOff = at_ v xs i

theorem iter_covers (h : v.Represents G c xs) : Covers v xs v.iter 0 xs.length :=
  ⟨Nat.le_refl _, by show v.elems = _; rw [← h.length, List.take_length, List.drop_zero], rfl, rfl, fun _ => by simp [iter, at_]⟩

theorem rec_get (h : v.Represents G c xs) {i : Nat} (hi : i < xs.length) : v.elems[i]'(by rw [h.length]; exact hi) = rec_ v xs i hi := by
  have h1 : v.elems[i]? = some (rec_ v xs i hi) := by
    rw [h.infos, infosFrom_getElem?, List.getElem?_eq_getElem hi]; simp [rec_, at_]
  rw [List.getElem?_eq_getElem (by rw [h.length]; exact hi)] at h1
  exact Option.some.inj h1

theorem Covers.cons (h : v.Represents G c xs) {it : UIter T} {i j : Nat} (hc : Covers v xs it i j) (hij : i < j) :
    it.infos = rec_ v xs i (by have := hc.le; omega) :: (v.elems.take j).drop (i + 1) := by
  have := hc.le
  have hl := h.length
  rw [hc.infos, List.drop_eq_getElem_cons (by simp; omega), List.getElem_take, rec_get h]

theorem Covers.nil (_ : v.Represents G c xs) {it : UIter T} {i j : Nat} (hc : Covers v xs it i j) (hij : j ≤ i) : it.infos = [] := by
  rw [hc.infos, List.drop_eq_nil_of_le]
  simp; omega

theorem Covers.snoc (h : v.Represents G c xs) {it : UIter T} {i j : Nat} (hc : Covers v xs it i j) (hij : i < j) :
    it.infos = (v.elems.take (j - 1)).drop i ++ [rec_ v xs (j - 1) (by have := hc.le; omega)] := by
  have := hc.le
  have hl := h.length
  rw [hc.infos]
  have : v.elems.take j = v.elems.take (j - 1) ++ [rec_ v xs (j - 1) (by omega)] := by
    rw [← rec_get h, List.take_append_getElem, show j - 1 + 1 = j by omega]
  rw [this, List.drop_append_of_le_length (by simp; omega)]

theorem at_bounds (h : v.Represents G c xs) {i : Nat} (hi : i < xs.length) :
    at_ v xs i + xs[i].size ≤ at_ v xs (i + 1) ∧ at_ v xs (i + 1) ≤ c.isizeMax ∧
      VSU.uncheckedPadTo c (at_ v xs i + xs[i].size) v.align = some (at_ v xs (i + 1)) := by
  have h1 := totalWidth_take_succ (padTo v.align) xs i hi
  have h2 := totalWidth_take_le (padTo v.align) xs (i + 1)
  have h3 := h.cap
  have h4 := h.capMax
  have h5 := h.le_w xs[i].size
  have h6 : padTo v.align (at_ v xs i + xs[i].size) = at_ v xs (i + 1) := by
    unfold at_
    rw [h1, padTo_add h.al.pos (dvd_totalWidth _)]
  unfold at_ at *
  refine ⟨by omega, by omega, ?_⟩
  rw [← h6]
  exact VSU.uncheckedPadTo_eq h.al (by omega) (by omega)

theorem at_zero : at_ v xs 0 = 0 := by simp [at_]

theorem ref_at (h : v.Represents G c xs) {i : Nat} (hi : i < xs.length) :
    mkRef v.heap v.ptr (at_ v xs i) xs[i].md = some ⟨v.ptr, at_ v xs i, xs[i].md⟩ := mkRef_elem h i hi

theorem sub_at (h : v.Represents G c xs) {i : Nat} (hi : i < xs.length) :
    VSU.uncheckedSub c (at_ v xs i + xs[i].size) (at_ v xs i) = some xs[i].size := by
  obtain ⟨h1, h2, _⟩ := at_bounds h hi
  rw [VSU.uncheckedSub_eq (by omega) (by omega)]
  congr 1; omega

theorem get_at (h : v.Represents G c xs) {i : Nat} (hi : i < xs.length) :
    getUnchecked c v i = some ⟨v.ptr, at_ v xs i, xs[i].md⟩ := getUnchecked_eq h i hi

theorem Covers.nth_infos (h : v.Represents G c xs) {it : UIter T} {i j n : Nat} (hc : Covers v xs it i j) (hij : i + n < j) :
    UIter.sliceNth it.infos n = (some (rec_ v xs (i + n) (by have := hc.le; omega)), (v.elems.take j).drop (i + n + 1)) := by
  have := hc.le
  have hl := h.length
  unfold UIter.sliceNth
  rw [hc.infos, List.drop_drop, List.drop_eq_getElem_cons (by simp; omega), List.getElem_take, rec_get h (by omega)]

theorem Covers.nth_none (_ : v.Represents G c xs) {it : UIter T} {i j n : Nat} (hc : Covers v xs it i j) (hij : j ≤ i + n) :
    UIter.sliceNth it.infos n = (none, []) := by
  unfold UIter.sliceNth
  rw [hc.infos, List.drop_drop, List.drop_eq_nil_of_le (by simp; omega)]

/-- The iterator works. -/
theorem iter_works (h : v.Represents G c xs) :
    ICall.Works (ICall.unaligned c v.heap) (Covers v xs) (fun i => getUnchecked c v i) where
  next_lt {it i j} hc hij := by
    have hi : i < xs.length := by have := hc.le; omega
    refine ⟨⟨(v.elems.take j).drop (i + 1), v.ptr, at_ v xs (i + 1), v.align⟩, ?_, ⟨hc.le, rfl, rfl, rfl, fun _ => rfl⟩⟩
    show it.next c v.heap = _
    unfold UIter.next
    rw [hc.cons h hij]
    simp only [rec_, hc.start hij, hc.ptr, hc.align, sub_at h hi, ref_at h hi, (at_bounds h hi).2.2, get_at h hi,
      Option.bind_eq_bind, Option.bind_some]
    rfl
  next_ge {it i j} hc hij := by
    show it.next c v.heap = _
    unfold UIter.next
    rw [hc.nil h hij]
  back_lt {it i j} hc hij hg := by
    have hj := hc.le
    have hl := h.length
    have hi : j - 1 < xs.length := by omega
    refine ⟨{ it with infos := (v.elems.take (j - 1)).drop i }, ?_, ⟨by omega, rfl, hc.ptr, hc.align, fun _ => hc.start (by omega)⟩⟩
    show it.nextBack c v.heap = _
    unfold UIter.nextBack
    rw [hc.snoc h hij]
    simp only [List.getLast?_append, List.getLast?_singleton, Option.some_or, List.dropLast_concat]
    by_cases h1 : i + 1 < j
    · have hc' : Covers v xs { it with infos := (v.elems.take (j - 1)).drop i } i (j - 1) :=
        ⟨by omega, rfl, hc.ptr, hc.align, fun _ => hc.start (by omega)⟩
      have h2 := hc'.snoc h (by omega)
      dsimp only at h2
      have h3 : ((v.elems.take (j - 1)).drop i).getLast? = some (rec_ v xs (j - 1 - 1) (by omega)) := by rw [h2]; simp
      have h4 := (at_bounds h (show j - 1 - 1 < xs.length by omega)).2.2
      rw [show j - 1 - 1 + 1 = j - 1 by omega] at h4
      simp only [h3, hc.align]
      simp only [rec_, h4, hc.ptr, sub_at h hi, ref_at h hi, get_at h hi, Option.bind_eq_bind, Option.bind_some]
      rfl
    · have h2 : j = 1 := by omega
      have h3 : i = 0 := by omega
      subst h2 h3
      have h1 := sub_at h hi
      have h2 := ref_at h hi
      have h4 := get_at h hi
      simp only [Nat.sub_self, at_zero] at h1 h2 h4 ⊢
      simp only [List.take_zero, List.drop_zero, List.getLast?_nil, rec_, hc.ptr, at_zero, h1, h2, h4, Option.bind_eq_bind,
        Option.bind_some]
      rfl
  back_ge {it i j} hc hij := by
    show it.nextBack c v.heap = _
    unfold UIter.nextBack
    rw [hc.nil h hij]
    rfl
  nth_lt {it i j n} hc hij hg := by
    have hj := hc.le
    have hi : i + n < xs.length := by omega
    refine ⟨⟨(v.elems.take j).drop (i + n + 1), v.ptr, at_ v xs (i + n + 1), v.align⟩, ?_, ⟨hc.le, rfl, rfl, rfl, fun _ => rfl⟩⟩
    show it.nth c v.heap n = _
    unfold UIter.nth
    cases n with
    | zero =>
      have h0 : i = 0 := by omega
      subst h0
      rw [hc.cons h (by omega)]
      have h1 := sub_at h hi
      have h2 := ref_at h hi
      have h3 := (at_bounds h hi).2.2
      have h4 := get_at h hi
      simp only [Nat.add_zero, at_zero] at h1 h2 h3 h4 ⊢
      simp only [rec_, hc.ptr, hc.align, at_zero, h1, h2, h3, h4, Option.bind_eq_bind, Option.bind_some]
      rfl
    | succ m =>
      have hm : i + m < xs.length := by omega
      have hcons : (v.elems.take j).drop (i + m + 1) = rec_ v xs (i + (m + 1)) hi :: (v.elems.take j).drop (i + (m + 1) + 1) := by
        have hl := h.length
        rw [show i + m + 1 = i + (m + 1) by omega, List.drop_eq_getElem_cons (by simp; omega), List.getElem_take,
          rec_get h (by omega)]
      simp only [hc.nth_infos h (show i + m < j by omega), hcons, hc.align]
      have h3 := (at_bounds h hm).2.2
      rw [show i + m + 1 = i + (m + 1) by omega] at h3
      simp only [rec_] at h3 ⊢
      rw [h3]
      simp only [hc.ptr, sub_at h hi, ref_at h hi, get_at h hi, (at_bounds h hi).2.2, Option.bind_eq_bind, Option.bind_some]
      rfl
  nth_ge {it i j n} hc hij := by
    have hj := hc.le
    refine ⟨{ it with infos := [] }, ?_, ⟨hc.le, ?_, hc.ptr, hc.align, fun _ => by omega⟩⟩
    · show it.nth c v.heap n = _
      unfold UIter.nth
      cases n with
      | zero => rw [hc.nil h (by omega)]; rfl
      | succ m =>
        by_cases h1 : i + m < j
        · have hm : i + m < xs.length := by omega
          have hnil : (v.elems.take j).drop (i + m + 1) = [] := List.drop_eq_nil_of_le (by simp; omega)
          simp only [hc.nth_infos h h1, hnil, hc.align]
          have h3 := (at_bounds h hm).2.2
          simp only [rec_] at h3 ⊢
          rw [h3]
          rfl
        · simp only [hc.nth_none h (show j ≤ i + m by omega)]
          rfl
    · rw [List.drop_eq_nil_of_le (by simp; omega)]
  back_iter _ _ := rfl
  some_ref {it i j k} hc hk := by
    have hi : k < xs.length := by have := hc.le; omega
    exact ⟨_, get_at h hi⟩

theorem Covers.len (h : v.Represents G c xs) {it : UIter T} {i j : Nat} (hc : Covers v xs it i j) : it.len = j - i := by
  have := hc.le
  have := h.length
  unfold UIter.len
  rw [hc.infos]
  simp; omega

theorem Covers.last (h : v.Represents G c xs) {it : UIter T} {i j : Nat} (hc : Covers v xs it i j) (hg : i = 0 ∨ i + 1 ≠ j) :
    it.last c v.heap = some (if i < j then getUnchecked c v (j - 1) else none) := by
  have hl := hc.len h
  unfold UIter.len at hl
  unfold UIter.last
  rw [hl]
  by_cases hij : i < j
  · obtain ⟨n, rfl⟩ : ∃ n, j = i + (n + 1) := ⟨j - i - 1, by omega⟩
    obtain ⟨it', h1, _⟩ := (iter_works h).nth_lt hc (n := n) (by omega) (by omega)
    rw [show i + (n + 1) - i = n + 1 by omega, if_pos hij, show i + (n + 1) - 1 = i + n by omega]
    show Option.map _ (it.nth c v.heap n) = _
    rw [show it.nth c v.heap n = _ from h1]
    rfl
  · rw [show j - i = 0 by omega, if_neg hij]

end UVec
/-! ## statically aligned elements -/

namespace AVec
variable {A : ATy} {β : Type} [Inhabited β] {c : Cfg} {v : AVec A β} {xs : List (Val A.ty β)}

/-- Where element `i` starts. -/
def at_ (_v : AVec A β) (xs : List (Val A.ty β)) (i : Nat) : Nat := totalWidth id (xs.take i)

/-- The record of element `i`. -/
def rec_ (v : AVec A β) (xs : List (Val A.ty β)) (i : Nat) (h : i < xs.length) : Info A.R := ⟨A.enc xs[i].md, at_ v xs i + xs[i].size⟩

/-- The elements `i`, …, `j - 1` are left. -/
structure Covers (v : AVec A β) (xs : List (Val A.ty β)) (it : AIter A) (i j : Nat) : Prop where
  le : j ≤ xs.length
  infos : it.infos = (v.elems.take j).drop i
  ptr : it.ptr = v.ptr
  start : i < j → it.startOff = at_ v xs i

theorem iter_covers (h : v.Holds c xs) : Covers v xs v.iter 0 xs.length :=
  ⟨Nat.le_refl _, by show v.elems = _; rw [← h.length, List.take_length, List.drop_zero], rfl, fun _ => by simp [iter, at_]⟩

theorem rec_get (h : v.Holds c xs) {i : Nat} (hi : i < xs.length) : v.elems[i]'(by rw [h.length]; exact hi) = rec_ v xs i hi := by
  have h1 : v.elems[i]? = some (rec_ v xs i hi) := by
    rw [h.infos, infosFrom_getElem?, List.getElem?_eq_getElem hi]; simp [rec_, at_]
  rw [List.getElem?_eq_getElem (by rw [h.length]; exact hi)] at h1
  exact Option.some.inj h1

theorem Covers.cons (h : v.Holds c xs) {it : AIter A} {i j : Nat} (hc : Covers v xs it i j) (hij : i < j) :
    it.infos = rec_ v xs i (by have := hc.le; omega) :: (v.elems.take j).drop (i + 1) := by
  have := hc.le
  have hl := h.length
  rw [hc.infos, List.drop_eq_getElem_cons (by simp; omega), List.getElem_take, rec_get h]

theorem Covers.nil (_ : v.Holds c xs) {it : AIter A} {i j : Nat} (hc : Covers v xs it i j) (hij : j ≤ i) : it.infos = [] := by
  rw [hc.infos, List.drop_eq_nil_of_le]
  simp; omega

theorem Covers.snoc (h : v.Holds c xs) {it : AIter A} {i j : Nat} (hc : Covers v xs it i j) (hij : i < j) :
    it.infos = (v.elems.take (j - 1)).drop i ++ [rec_ v xs (j - 1) (by have := hc.le; omega)] := by
  have := hc.le
  have hl := h.length
  rw [hc.infos]
  have : v.elems.take j = v.elems.take (j - 1) ++ [rec_ v xs (j - 1) (by omega)] := by
    rw [← rec_get h, List.take_append_getElem, show j - 1 + 1 = j by omega]
  rw [this, List.drop_append_of_le_length (by simp; omega)]

theorem at_succ {i : Nat} (hi : i < xs.length) : at_ v xs i + xs[i].size = at_ v xs (i + 1) := by
  have h1 := totalWidth_take_succ id xs i hi
  unfold at_
  rw [h1]; rfl

theorem at_le (h : v.Holds c xs) (i : Nat) : at_ v xs i ≤ VS.max c A.ALIGN := by
  have h2 := totalWidth_take_le id xs i
  have h3 := h.cap
  have h4 := h.capMax
  unfold at_
  omega

theorem at_zero : at_ v xs 0 = 0 := by simp [at_]

theorem ref_at (hA : A.Fits c) (h : v.Holds c xs) {i : Nat} (hi : i < xs.length) :
    mkRef v.heap v.ptr (at_ v xs i) xs[i].md = some ⟨v.ptr, at_ v xs i, xs[i].md⟩ := mkRef_elem hA h i hi

theorem sub_at (h : v.Holds c xs) {i : Nat} (hi : i < xs.length) :
    VS.uncheckedSub c A.ALIGN (at_ v xs i + xs[i].size) (at_ v xs i) = some xs[i].size := by
  have h2 := at_le h (i + 1)
  rw [← at_succ hi] at h2
  rw [VS.uncheckedSub_eq (by omega) (by omega)]
  congr 1; omega

theorem get_at (hA : A.Fits c) (h : v.Holds c xs) {i : Nat} (hi : i < xs.length) :
    getUnchecked c v i = some ⟨v.ptr, at_ v xs i, xs[i].md⟩ := getUnchecked_eq hA h i hi

theorem Covers.nth_infos (h : v.Holds c xs) {it : AIter A} {i j n : Nat} (hc : Covers v xs it i j) (hij : i + n < j) :
    UIter.sliceNth it.infos n = (some (rec_ v xs (i + n) (by have := hc.le; omega)), (v.elems.take j).drop (i + n + 1)) := by
  have := hc.le
  have hl := h.length
  unfold UIter.sliceNth
  rw [hc.infos, List.drop_drop, List.drop_eq_getElem_cons (by simp; omega), List.getElem_take, rec_get h (by omega)]

theorem Covers.nth_none (_ : v.Holds c xs) {it : AIter A} {i j n : Nat} (hc : Covers v xs it i j) (hij : j ≤ i + n) :
    UIter.sliceNth it.infos n = (none, []) := by
  unfold UIter.sliceNth
  rw [hc.infos, List.drop_drop, List.drop_eq_nil_of_le (by simp; omega)]

/-- The iterator works. -/
theorem iter_works (hA : A.Fits c) (h : v.Holds c xs) :
    ICall.Works (ICall.aligned c v.heap) (Covers v xs) (fun i => getUnchecked c v i) where
  next_lt {it i j} hc hij := by
    have hi : i < xs.length := by have := hc.le; omega
    refine ⟨⟨(v.elems.take j).drop (i + 1), v.ptr, at_ v xs i + xs[i].size⟩, ?_, ⟨hc.le, rfl, rfl, fun _ => at_succ hi⟩⟩
    show it.next c v.heap = _
    unfold AIter.next
    rw [hc.cons h hij]
    simp only [rec_, hc.start hij, hc.ptr, sub_at h hi, h.dec_eq (List.getElem_mem _), ref_at hA h hi, get_at hA h hi,
      Option.bind_eq_bind, Option.bind_some]
    rfl
  next_ge {it i j} hc hij := by
    show it.next c v.heap = _
    unfold AIter.next
    rw [hc.nil h hij]
  back_lt {it i j} hc hij hg := by
    have hj := hc.le
    have hl := h.length
    have hi : j - 1 < xs.length := by omega
    refine ⟨{ it with infos := (v.elems.take (j - 1)).drop i }, ?_, ⟨by omega, rfl, hc.ptr, fun _ => hc.start (by omega)⟩⟩
    show it.nextBack c v.heap = _
    unfold AIter.nextBack
    rw [hc.snoc h hij]
    simp only [List.getLast?_append, List.getLast?_singleton, Option.some_or, List.dropLast_concat]
    by_cases h1 : i + 1 < j
    · have hc' : Covers v xs { it with infos := (v.elems.take (j - 1)).drop i } i (j - 1) :=
        ⟨by omega, rfl, hc.ptr, fun _ => hc.start (by omega)⟩
      have h2 := hc'.snoc h (by omega)
      dsimp only at h2
      have h3 : ((v.elems.take (j - 1)).drop i).getLast? = some (rec_ v xs (j - 1 - 1) (by omega)) := by rw [h2]; simp
      have h4 := at_succ (v := v) (show j - 1 - 1 < xs.length by omega)
      rw [show j - 1 - 1 + 1 = j - 1 by omega] at h4
      simp only [h3]
      simp only [rec_, h4, hc.ptr, sub_at h hi, h.dec_eq (List.getElem_mem _), ref_at hA h hi, get_at hA h hi, Option.bind_eq_bind, Option.bind_some]
      rfl
    · have h2 : j = 1 := by omega
      have h3 : i = 0 := by omega
      subst h2 h3
      have h1 := sub_at h hi
      have h2 := ref_at hA h hi
      have h4 := get_at hA h hi
      simp only [Nat.sub_self, at_zero] at h1 h2 h4 ⊢
      simp only [List.take_zero, List.drop_zero, List.getLast?_nil, rec_, hc.ptr, at_zero, h1, h.dec_eq (List.getElem_mem _), h2, h4, Option.bind_eq_bind,
        Option.bind_some]
      rfl
  back_ge {it i j} hc hij := by
    show it.nextBack c v.heap = _
    unfold AIter.nextBack
    rw [hc.nil h hij]
    rfl
  nth_lt {it i j n} hc hij hg := by
    have hj := hc.le
    have hi : i + n < xs.length := by omega
    refine ⟨⟨(v.elems.take j).drop (i + n + 1), v.ptr, at_ v xs (i + n) + xs[i + n].size⟩, ?_, ⟨hc.le, rfl, rfl, fun _ => at_succ hi⟩⟩
    show it.nth c v.heap n = _
    unfold AIter.nth
    cases n with
    | zero =>
      have h0 : i = 0 := by omega
      subst h0
      rw [hc.cons h (by omega)]
      have h1 := sub_at h hi
      have h2 := ref_at hA h hi
      have h3 := at_succ (v := v) hi
      have h4 := get_at hA h hi
      simp only [Nat.add_zero, at_zero] at h1 h2 h3 h4 ⊢
      simp only [rec_, hc.ptr, at_zero, h1, h.dec_eq (List.getElem_mem _), h2, h4, Option.bind_eq_bind, Option.bind_some]
      rfl
    | succ m =>
      have hm : i + m < xs.length := by omega
      have hcons : (v.elems.take j).drop (i + m + 1) = rec_ v xs (i + (m + 1)) hi :: (v.elems.take j).drop (i + (m + 1) + 1) := by
        have hl := h.length
        rw [show i + m + 1 = i + (m + 1) by omega, List.drop_eq_getElem_cons (by simp; omega), List.getElem_take,
          rec_get h (by omega)]
      simp only [hc.nth_infos h (show i + m < j by omega), hcons]
      have h3 := at_succ (v := v) hm
      rw [show i + m + 1 = i + (m + 1) by omega] at h3
      simp only [rec_] at h3 ⊢
      rw [h3]
      simp only [hc.ptr, sub_at h hi, h.dec_eq (List.getElem_mem _), ref_at hA h hi, get_at hA h hi, Option.bind_eq_bind, Option.bind_some]
      rfl
  nth_ge {it i j n} hc hij := by
    have hj := hc.le
    refine ⟨{ it with infos := [] }, ?_, ⟨hc.le, ?_, hc.ptr, fun _ => by omega⟩⟩
    · show it.nth c v.heap n = _
      unfold AIter.nth
      cases n with
      | zero => rw [hc.nil h (by omega)]; rfl
      | succ m =>
        by_cases h1 : i + m < j
        · have hm : i + m < xs.length := by omega
          have hnil : (v.elems.take j).drop (i + m + 1) = [] := List.drop_eq_nil_of_le (by simp; omega)
          simp only [hc.nth_infos h h1, hnil]
          rfl
        · simp only [hc.nth_none h (show j ≤ i + m by omega)]
          rfl
    · rw [List.drop_eq_nil_of_le (by simp; omega)]
  back_iter _ _ := rfl
  some_ref {it i j k} hc hk := by
    have hi : k < xs.length := by have := hc.le; omega
    exact ⟨_, get_at hA h hi⟩

theorem Covers.len (h : v.Holds c xs) {it : AIter A} {i j : Nat} (hc : Covers v xs it i j) : it.len = j - i := by
  have := hc.le
  have := h.length
  unfold AIter.len
  rw [hc.infos]
  simp; omega

theorem Covers.last (hA : A.Fits c) (h : v.Holds c xs) {it : AIter A} {i j : Nat} (hc : Covers v xs it i j) (hg : i = 0 ∨ i + 1 ≠ j) :
    it.last c v.heap = some (if i < j then getUnchecked c v (j - 1) else none) := by
  have hl := hc.len h
  unfold AIter.len at hl
  unfold AIter.last
  rw [hl]
  by_cases hij : i < j
  · obtain ⟨n, rfl⟩ : ∃ n, j = i + (n + 1) := ⟨j - i - 1, by omega⟩
    obtain ⟨it', h1, _⟩ := (iter_works hA h).nth_lt hc (n := n) (by omega) (by omega)
    rw [show i + (n + 1) - i = n + 1 by omega, if_pos hij, show i + (n + 1) - 1 = i + n by omega]
    show Option.map _ (it.nth c v.heap n) = _
    rw [show it.nth c v.heap n = _ from h1]
    rfl
  · rw [show j - i = 0 by omega, if_neg hij]

end AVec
end Verif
