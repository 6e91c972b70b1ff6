import Verif.Spec.Tests
import Verif.Proofs.Docs
import Verif.Proofs.ReserveInst
import Verif.Proofs.PlainShrink

/-!
# The tests of the repository: proofs
-/

namespace Verif
namespace Docs
variable {V : Type} {T : UTy} {β : Type} {c : Cfg} {M : Machine V T β}

theorem listRun_cons {env : Env (Val T β)} {op : Op T β} {p : List (Env (Val T β) × Op T β)} {s s1 s' : Ideal T β} {o : Out T β}
    {os : List (Out T β)} (h : op.onList env.dropPanics s = (o, s1)) (hp : listRun p s1 = (os, s')) :
    listRun ((env, op) :: p) s = (o :: os, s') := by
  unfold listRun
  rw [h]
  dsimp only
  rw [hp]

/-- What the tests do to a list. -/
theorem Test.listRun_eq (t : Test T β) (envs : Nat → Env (Val T β)) :
    listRun (inTurn envs t.ops) ⟨[], []⟩ = (t.shows, ⟨t.leaves, []⟩) := by
  cases t <;> (simp only [Test.ops, Test.shows, Test.leaves, inTurn]; repeat refine listRun_cons rfl ?_) <;> rfl

theorem Test.no_panic (t : Test T β) : Out.panicked ∉ t.shows := by
  cases t <;> simp [Test.shows]

theorem Test.no_tryReserve {t : Test T β} {op : Op T β} (h : op ∈ t.ops) (q : Reservation) : op ≠ .tryReserve q := by
  rintro rfl
  cases t <;> simp [Test.ops] at h

/-- No call of the tests can be ended by a second panic. -/
theorem Test.not_dies {t : Test T β} {op : Op T β} (h : op ∈ t.ops) (panics : Val T β → Bool) (xs : List (Val T β)) : ¬ op.Dies panics xs := by
  intro hd
  cases op with
  | insert i x =>
    have h0 : i = 0 := by cases t <;> simp [Test.ops] at h <;> exact h.1
    subst h0
    exact absurd hd.1 (Nat.not_lt_zero _)
  | insertWith i s => cases t <;> simp [Test.ops] at h
  | _ => exact hd

/-- A run of a test that is as it asserts or fails for lack of memory. -/
theorem asserted (K : Client c M) (t : Test T β) {envs : Nat → Env (Val T β)} {v : V} (hr : K.Rel v ⟨[], []⟩)
    (hs : K.Safe (inTurn envs t.ops) v ⟨[], []⟩) :
    (runOps c M (inTurn envs t.ops) v).Meets
      (fun os v' => (os = t.shows ∧ Tracks M K.H v' ⟨t.leaves, []⟩) ∨ (.panicked ∈ os ∧ ¬ K.Plenty (inTurn envs t.ops) v ⟨[], []⟩))
      (fun _ => False) (¬ K.Plenty (inTurn envs t.ops) v ⟨[], []⟩) := by
  refine (K.history _ v _ hr hs).mono ?_ (fun _ h => h) ?_
  · rintro os v' ⟨s', h1, h2, h3⟩
    rw [t.listRun_eq envs] at h3
    by_cases hp : Out.panicked ∈ os
    · refine .inr ⟨hp, fun hq => ?_⟩
      rw [(Prod.mk.inj (h3 hq)).1] at hp
      exact t.no_panic hp
    · have := h2.unfailed (fun x hx q => Test.no_tryReserve (mem_inTurn hx).2 q) hp
      rw [t.listRun_eq envs] at this
      obtain ⟨rfl, rfl⟩ := Prod.mk.inj this
      exact .inl ⟨rfl, h1⟩
  · exact fun h hp => h (along_imp (fun x hx _ _ h => ⟨h, Test.not_dies (mem_inTurn hx).2 _ _⟩) hp)

/-! ## The list before a call -/

/-- Calls that only look, and shrinking. -/
def Looks : Op T β → Prop
  | .len | .index _ | .shrink _ => True
  | _ => False

theorem Looks.same {op : Op T β} (h : Looks op) {p : Val T β → Bool} {s s' : Ideal T β} {o : Out T β} (ha : op.Allows True p s o s') :
    s'.contents = s.contents := by
  cases op with
  | len => rcases ha with ha | ⟨_, ha, _⟩ <;> cases ha; rfl
  | shrink q => rcases ha with ha | ⟨_, ha, _⟩ <;> cases ha; rfl
  | index i =>
    rcases ha with ha | ⟨_, ha, _⟩
    · unfold Op.onList at ha
      dsimp only at ha
      split at ha <;> cases ha <;> rfl
    · cases ha
  | _ => cases h

theorem push_step {x : Val T β} {p : Val T β → Bool} {s s' : Ideal T β} {o : Out T β} (ha : (Op.push x).Allows True p s o s') :
    s'.contents = s.contents ++ [x] ∨ s'.contents = s.contents := by
  rcases ha with ha | ⟨_, _, _, rfl⟩
  · cases ha; exact .inl rfl
  · exact .inr rfl

theorem push_length {x : Val T β} {p : Val T β → Bool} {s s' : Ideal T β} {o : Out T β} {k : Nat} (h : s.contents.length ≤ k)
    (ha : (Op.push x).Allows True p s o s') : s'.contents.length ≤ k + 1 := by
  rcases push_step ha with h1 | h1 <;> rw [h1]
  · simpa using h
  · exact Nat.le_succ_of_le h

theorem pop_length {p : Val T β → Bool} {s s' : Ideal T β} {o : Out T β} {k : Nat} (h : s.contents.length ≤ k + 1)
    (ha : (Op.pop .take).Allows True p s o s') : s'.contents.length ≤ k := by
  rcases ha with ha | ⟨_, ha, _⟩
  · unfold Op.onList at ha
    dsimp only at ha
    split at ha
    · rename_i h1
      cases ha
      rw [List.getLast?_eq_none_iff.1 h1]
      exact Nat.zero_le _
    · cases ha
      simp
      omega
  · cases ha

/-- Only if all three have been pushed is there an element 2. -/
theorem push_third {x : Val T β} {p : Val T β → Bool} {s s' : Ideal T β} {o : Out T β} (h : s.contents.length ≤ 2)
    (ha : (Op.push x).Allows True p s o s') : ∀ y, s'.contents[2]? = some y → y = x := by
  intro y hy
  have hlt := (List.getElem?_eq_some_iff.1 hy).1
  rcases push_step ha with h1 | h1 <;> rw [h1] at hy hlt
  · simp at hlt
    have h2 : s.contents.length = 2 := by omega
    rw [List.getElem?_append_right (by omega), h2] at hy
    simpa using hy.symm
  · omega

/-- A condition that may depend on the list only for `set`: there, element 2 is the third value, if it exists. -/
theorem Test.along {Q : Env (Val T β) → Op T β → List (Val T β) → Prop} (t : Test T β) (envs : Nat → Env (Val T β))
    (h : ∀ i, ∀ op ∈ t.ops, (∀ bs, op ≠ .set 2 bs) → ∀ xs, Q (envs i) op xs)
    (hs : ∀ i x y z w bs, t = .unsizedDrop x y z w bs ∨ t = .unsizedAligned x y z w bs → ∀ xs, (∀ u, xs[2]? = some u → u = z) →
      Q (envs i) (.set 2 bs) xs) : AlongList Q (inTurn envs t.ops) ⟨[], []⟩ := by
  cases t with
  | sized x y =>
    refine along_all fun p hp xs => ?_
    obtain ⟨⟨i, h1⟩, h2⟩ := mem_inTurn hp
    rw [h1]
    exact h i p.2 h2 (fun bs hb => by rw [hb] at h2; simp [Test.ops] at h2) xs
  | dynamic x y w =>
    refine along_all fun p hp xs => ?_
    obtain ⟨⟨i, h1⟩, h2⟩ := mem_inTurn hp
    rw [h1]
    exact h i p.2 h2 (fun bs hb => by rw [hb] at h2; simp [Test.ops] at h2) xs
  | unsizedDrop x y z w bs =>
    refine ⟨h 0 _ (by simp [Test.ops]) (by intro _ h; cases h) _, fun _ s1 a1 => ?_⟩
    refine ⟨h 1 _ (by simp [Test.ops]) (by intro _ h; cases h) _, fun _ s2 a2 => ?_⟩
    refine ⟨h 2 _ (by simp [Test.ops]) (by intro _ h; cases h) _, fun _ s3 a3 => ?_⟩
    refine ⟨h 3 _ (by simp [Test.ops]) (by intro _ h; cases h) _, fun _ s4 a4 => ?_⟩
    refine ⟨h 4 _ (by simp [Test.ops]) (by intro _ h; cases h) _, fun _ s5 a5 => ?_⟩
    refine ⟨h 5 _ (by simp [Test.ops]) (by intro _ h; cases h) _, fun _ s6 a6 => ?_⟩
    refine ⟨h 6 _ (by simp [Test.ops]) (by intro _ h; cases h) _, fun _ s7 a7 => ?_⟩
    have l1 : s1.contents.length ≤ 0 := by rw [Looks.same (op := .len) trivial a1]; exact Nat.le_refl 0
    have l2 := push_length l1 a2
    have l3 : s3.contents.length ≤ 1 := by rw [Looks.same (op := .len) trivial a3]; exact l2
    have l4 : s4.contents.length ≤ 1 := by rw [Looks.same (op := .index 0) trivial a4]; exact l3
    have l5 := push_length l4 a5
    have l6 : s6.contents.length ≤ 2 := by rw [Looks.same (op := .index 1) trivial a6]; exact l5
    refine ⟨hs 7 _ _ _ _ _ (.inl rfl) _ (push_third l6 a7), fun _ s8 a8 => ?_⟩
    refine along_all fun p hp xs => ?_
    obtain ⟨⟨i, h1⟩, h2⟩ := mem_inTurn hp
    rw [h1]
    exact h (i + 8) p.2 (by simp at h2; simp [Test.ops, h2]) (fun bs hb => by rw [hb] at h2; simp at h2) xs
  | unsizedAligned x y z w bs =>
    refine ⟨h 0 _ (by simp [Test.ops]) (by intro _ h; cases h) _, fun _ s1 a1 => ?_⟩
    refine ⟨h 1 _ (by simp [Test.ops]) (by intro _ h; cases h) _, fun _ s2 a2 => ?_⟩
    refine ⟨h 2 _ (by simp [Test.ops]) (by intro _ h; cases h) _, fun _ s3 a3 => ?_⟩
    refine ⟨h 3 _ (by simp [Test.ops]) (by intro _ h; cases h) _, fun _ s4 a4 => ?_⟩
    refine ⟨h 4 _ (by simp [Test.ops]) (by intro _ h; cases h) _, fun _ s5 a5 => ?_⟩
    refine ⟨h 5 _ (by simp [Test.ops]) (by intro _ h; cases h) _, fun _ s6 a6 => ?_⟩
    refine ⟨h 6 _ (by simp [Test.ops]) (by intro _ h; cases h) _, fun _ s7 a7 => ?_⟩
    refine ⟨h 7 _ (by simp [Test.ops]) (by intro _ h; cases h) _, fun _ s8 a8 => ?_⟩
    have l1 : s1.contents.length ≤ 0 := by rw [Looks.same (op := .len) trivial a1]; exact Nat.le_refl 0
    have l2 := push_length l1 a2
    have l3 : s3.contents.length ≤ 1 := by rw [Looks.same (op := .len) trivial a3]; exact l2
    have l4 : s4.contents.length ≤ 1 := by rw [Looks.same (op := .index 0) trivial a4]; exact l3
    have l5 := push_length l4 a5
    have l6 : s6.contents.length ≤ 2 := by rw [Looks.same (op := .index 1) trivial a6]; exact l5
    have l7 : s7.contents.length ≤ 2 := by rw [Looks.same (op := .shrink .toFit) trivial a7]; exact l6
    refine ⟨hs 8 _ _ _ _ _ (.inr rfl) _ (push_third l7 a8), fun _ s9 a9 => ?_⟩
    refine along_all fun p hp xs => ?_
    obtain ⟨⟨i, h1⟩, h2⟩ := mem_inTurn hp
    rw [h1]
    exact h (i + 9) p.2 (by simp at h2; simp [Test.ops, h2]) (fun bs hb => by rw [hb] at h2; simp at h2) xs

/-! ## Dynamically aligned elements -/

section
variable {lo hi : Nat}

/-- A condition that does not depend on the vector or the list. -/
theorem along_any {H : V → List (Val T β) → Prop} {Q : Env (Val T β) → Op T β → V → List (Val T β) → Prop} :
    ∀ {p : List (Env (Val T β) × Op T β)} {v : V} {s : Ideal T β}, (∀ x ∈ p, ∀ v xs, Q x.1 x.2 v xs) → Along c M H Q p v s
  | [], _, _, _ => trivial
  | (_, _) :: _, _, _, h => ⟨h _ (List.mem_cons_self ..) _ _, fun _ _ _ _ _ _ => along_any fun x hx => h x (List.mem_cons_of_mem _ hx)⟩

/-- `shrink_to_fit` is covered while there is at most one element. -/
theorem shrink_one {env : Env (Val T β)} {v : UVec T β} {xs : List (Val T β)} (h1 : IsAlign c 1) (h : xs.length ≤ 1) :
    UVec.Covered True c env (.shrink .toFit) v xs := by
  refine ⟨h1, fun x hx => ?_, fun _ => ?_⟩
  · have : xs.dropLast = [] := List.length_eq_zero_iff.1 (by simp; omega)
    rw [this] at hx
    cases hx
  · show _ ∣ max (min 0 v.byteCap) _
    rw [Nat.zero_min, Nat.max_eq_right (Nat.zero_le _)]
    exact dvd_totalWidth _

theorem insert_front {env : Env (Val T β)} {v : UVec T β} {xs : List (Val T β)} {x : Val T β} (h : 0 < x.size) :
    UVec.Covered True c env (.insert 0 x) v xs := by
  refine ⟨fun _ h0 => absurd h0 (Nat.ne_of_gt h), fun h => absurd trivial h, fun _ => ⟨?_, rfl⟩⟩
  cases xs with
  | nil => exact .inr (.inl rfl)
  | cons y ys => exact .inl (Nat.succ_pos _)

theorem AlongList.imp {Q R : Env (Val T β) → Op T β → List (Val T β) → Prop} (hQ : ∀ env op xs, Q env op xs → R env op xs) :
    ∀ {p : List (Env (Val T β) × Op T β)} {s : Ideal T β}, AlongList Q p s → AlongList R p s
  | [], _, _ => trivial
  | (_, _) :: _, _, h => ⟨hQ _ _ _ h.1, fun o s' ha => AlongList.imp hQ (h.2 o s' ha)⟩

theorem AlongList.both {Q R : Env (Val T β) → Op T β → List (Val T β) → Prop} : ∀ {p : List (Env (Val T β) × Op T β)} {s : Ideal T β},
    AlongList Q p s → AlongList R p s → AlongList (fun env op xs => Q env op xs ∧ R env op xs) p s
  | [], _, _, _ => trivial
  | (_, _) :: _, _, h1, h2 => ⟨⟨h1.1, h2.1⟩, fun o s' ha => AlongList.both (h1.2 o s' ha) (h2.2 o s' ha)⟩

/-- A condition that depends only on what is kept by all calls. -/
theorem along_kept {Q : Env (Val T β) → Op T β → List (Val T β) → Prop} {I : List (Val T β) → Prop} :
    ∀ {p : List (Env (Val T β) × Op T β)} {s : Ideal T β}, I s.contents →
      (∀ x ∈ p, ∀ s o s', I s.contents → x.2.Allows True x.1.dropPanics s o s' → I s'.contents) →
      (∀ x ∈ p, ∀ xs, I xs → Q x.1 x.2 xs) → AlongList Q p s
  | [], _, _, _, _ => trivial
  | (_, _) :: _, _, hi, hk, h => ⟨h _ (List.mem_cons_self ..) _ hi, fun o s' ha => along_kept (hk _ (List.mem_cons_self ..) _ o s' hi ha)
      (fun x hx => hk x (List.mem_cons_of_mem _ hx)) fun x hx => h x (List.mem_cons_of_mem _ hx)⟩

/-- The sizes of the elements stay multiples of `hi`. -/
theorem Test.sizes {t : Test T β} (ht : ∀ x ∈ t.vals, hi ∣ x.size) {op : Op T β} (ho : op ∈ t.ops) {panics : Val T β → Bool} {s s' : Ideal T β}
    {o : Out T β} (hs : ∀ x ∈ s.contents, hi ∣ x.size) (ha : op.Allows True panics s o s') : ∀ x ∈ s'.contents, hi ∣ x.size := by
  have hv : ∀ x, op = .push x ∨ op = .insert 0 x → hi ∣ x.size := by
    intro x hx
    refine ht x ?_
    rcases hx with rfl | rfl <;> cases t <;> simp [Test.ops] at ho <;> simp [Test.vals] <;> grind
  rcases ha with ha | ⟨_, _, _, ha⟩
  · have ha : s' = (op.onList panics s).2 := congrArg Prod.snd ha
    rw [ha]
    have key : (∃ x, op = .push x) ∨ (∃ x, op = .insert 0 x) ∨ (∃ bs, op = .set 2 bs) ∨ op = .pop .take ∨ (∃ i, op = .remove i .take) ∨
        (∃ ks, op = .iter ks) ∨ Looks op := by
      cases t <;> simp only [Test.ops, List.mem_cons, List.not_mem_nil, or_false] at ho <;>
        (repeat' (rcases ho with rfl | ho)) <;> (try subst ho) <;> simp [Looks]
    rcases key with ⟨x, rfl⟩ | ⟨x, rfl⟩ | ⟨bs, rfl⟩ | rfl | ⟨i, rfl⟩ | ⟨ks, rfl⟩ | hl
    · intro y hy
      rcases List.mem_append.1 hy with hy | hy
      · exact hs y hy
      · rw [List.mem_singleton.1 hy]; exact hv x (.inl rfl)
    · intro y hy
      have hy : y ∈ x :: s.contents := hy
      rcases List.mem_cons.1 hy with rfl | hy
      · exact hv _ (.inr rfl)
      · exact hs y hy
    · intro y hy
      unfold Op.onList at hy
      dsimp only at hy
      split at hy
      · rename_i u hu
        rcases List.mem_or_eq_of_mem_set hy with hy | rfl
        · exact hs y hy
        · exact hs u (List.mem_of_getElem? hu)
      · exact hs y hy
    · intro y hy
      unfold Op.onList at hy
      dsimp only at hy
      split at hy
      · exact hs y hy
      · exact hs y (List.dropLast_subset _ hy)
    · intro y hy
      unfold Op.onList at hy
      dsimp only at hy
      split at hy
      · exact hs y hy
      · exact hs y (List.mem_of_mem_eraseIdx hy)
    · exact hs
    · have h0 := hl.same (p := panics) (s := s) (s' := (op.onList panics s).2) (o := (op.onList panics s).1) (.inl rfl)
      rw [h0]; exact hs
  · rw [ha]
    intro y hy
    cases op with
    | insertWith i e => cases t <;> simp [Test.ops] at ho
    | _ => exact hs y hy

/-- All calls of the tests are covered if the sizes of the values are positive multiples of `hi`. -/
theorem Test.plainShrink (t : Test T β) (h1 : IsAlign c 1) (hw : t.WF c) (ht : ∀ x ∈ t.vals, 0 < x.size ∧ x.align ≤ hi ∧ hi ∣ x.size)
    (envs : Nat → Env (Val T β)) (he : ∀ i, (envs i).Valid ∧ (envs i).Exact) :
    AlongList (fun env op xs => (env.Valid ∧ env.Exact) ∧ op.WF c xs ∧ UVec.PlainShrink c hi env op xs) (inTurn envs t.ops) ⟨[], []⟩ := by
  have a : AlongList (fun env op xs => (env.Valid ∧ env.Exact) ∧ op.WF c xs) (inTurn envs t.ops) ⟨[], []⟩ := by
    refine t.along (Q := fun env op xs => (env.Valid ∧ env.Exact) ∧ op.WF c xs) envs (fun i op ho hn xs => ⟨he i, ?_⟩) ?_
    · cases t <;> simp only [Test.ops, List.mem_cons, List.not_mem_nil, or_false] at ho <;>
        simp only [Test.WF] at hw <;>
        (repeat' (rcases ho with rfl | ho)) <;> (try subst ho) <;>
        first
          | exact absurd rfl (hn _)
          | exact trivial
          | simp only [Op.WF, hw]
    · rintro i x y z w bs (rfl | rfl) xs hx
      · exact ⟨he i, fun u hu => by rw [hx u hu]; exact hw.2.2.2.2⟩
      · exact ⟨he i, fun u hu => by rw [hx u hu]; exact hw.2.2.2.2⟩
  have b : AlongList (fun env op xs => UVec.PlainShrink c hi env op xs) (inTurn envs t.ops) ⟨[], []⟩ := by
    refine along_kept (I := fun xs => ∀ x ∈ xs, hi ∣ x.size) nofun
      (fun x hx s o s' hs ha => Test.sizes (fun x hx => (ht x hx).2.2) (mem_inTurn hx).2 hs ha) fun q hq xs hxs => ?_
    have ho := (mem_inTurn hq).2
    obtain ⟨env, op⟩ := q
    dsimp only at ho ⊢
    have hx : ∀ x ∈ t.vals, UVec.Addable 1 hi x.size x.align := fun x hx => ⟨(ht x hx).2.1, .inl (ht x hx).1⟩
    have hsh : UVec.PlainShrink c hi env (.shrink .toFit) xs := ⟨h1, .inl (Nat.dvd_zero _), fun y hy => hxs y (List.dropLast_subset _ hy)⟩
    have hrm : ∀ i, UVec.PlainShrink c hi env (.remove i .take) xs := fun i =>
      ⟨fun _ _ _ y hy => hxs y (List.mem_of_getElem? hy), fun h => nomatch h⟩
    cases t <;> simp only [Test.ops, List.mem_cons, List.not_mem_nil, or_false] at ho <;>
      simp only [Test.vals, List.mem_cons, List.not_mem_nil, or_false, forall_eq_or_imp, forall_eq] at hx <;>
      (repeat' (rcases ho with rfl | ho)) <;> (try subst ho) <;>
      first
        | exact hsh
        | exact hrm _
        | exact trivial
        | exact okRun_next 3 _ _
        | exact hx.1
        | exact hx.2
        | exact hx.2.1
        | exact hx.2.2.1
        | exact ⟨hx.2.2, fun _ => rfl⟩
        | exact ⟨hx.2.2.2, fun _ => rfl⟩
  have := AlongList.both a b
  exact AlongList.imp (fun _ _ _ h => ⟨h.1.1, h.1.2, h.2⟩) this

variable [Inhabited β]

/-- A call of `Plain` is covered, and the alignment stays within the bounds. -/
theorem plain_step (hhi : IsAlign c hi) {env : Env (Val T β)} (he : env.Valid ∧ env.Exact) {op : Op T β} {p : List (Env (Val T β) × Op T β)}
    {v : UVec T β} {s : Ideal T β} (ht : Tracks (unalignedM c T) (UVec.Holds c) v s) (hw : op.WF c s.contents)
    (hp : UVec.Plain c lo hi env op s.contents) (hl : lo ≤ v.align ∧ v.align ≤ hi)
    (next : ∀ o v' s', Tracks (unalignedM c T) (UVec.Holds c) v' s' → (lo ≤ v'.align ∧ v'.align ≤ hi) → op.Allows True env.dropPanics s o s' →
      Along c (unalignedM c T) (UVec.Holds c) (fun env op v xs => (env.Valid ∧ (True → env.Exact)) ∧ op.WF c xs ∧ UVec.Covered True c env op v xs) p v' s') :
    Along c (unalignedM c T) (UVec.Holds c) (fun env op v xs => (env.Valid ∧ (True → env.Exact)) ∧ op.WF c xs ∧ UVec.Covered True c env op v xs)
      ((env, op) :: p) v s :=
  ⟨⟨⟨he.1, fun _ => he.2⟩, hw, hp.covered ht.1 hw hhi hl.1 hl.2⟩, fun o v' s' hr ht' ha => next o v' s' ht' (hp.bounds hl.1 hl.2 hr) ha⟩

theorem dynamic_along (hhi : IsAlign c hi) {x y w : Val T β} {envs : Nat → Env (Val T β)} (he : ∀ i, (envs i).Valid ∧ (envs i).Exact)
    (hw : (Test.dynamic x y w).WF c) (hx : UVec.Addable lo hi x.size x.align) (hy : UVec.Addable lo hi y.size y.align) (h0 : 0 < w.size)
    {v : UVec T β} (ht : Tracks (unalignedM c T) (UVec.Holds c) v ⟨[], []⟩) (hl : lo ≤ v.align ∧ v.align ≤ hi) :
    Along c (unalignedM c T) (UVec.Holds c) (fun env op v xs => (env.Valid ∧ (True → env.Exact)) ∧ op.WF c xs ∧ UVec.Covered True c env op v xs)
      (inTurn envs (Test.dynamic x y w).ops) v ⟨[], []⟩ := by
  refine plain_step hhi (he 0) ht trivial trivial hl fun _ v1 s1 ht hl a1 => ?_
  refine plain_step hhi (he 1) ht hw.1 hx hl fun _ v2 s2 ht hl a2 => ?_
  refine plain_step hhi (he 2) ht trivial trivial hl fun _ v3 s3 ht hl a3 => ?_
  refine plain_step hhi (he 3) ht hw.2.1 hy hl fun _ v4 s4 ht hl a4 => ?_
  refine plain_step hhi (he 4) ht trivial trivial hl fun _ v5 s5 ht hl a5 => ?_
  refine plain_step hhi (he 5) ht trivial trivial hl fun _ v6 s6 ht hl a6 => ?_
  refine plain_step hhi (he 6) ht trivial trivial hl fun _ v7 s7 ht hl a7 => ?_
  have l1 : s1.contents.length ≤ 0 := by rw [Looks.same (op := .len) trivial a1]; exact Nat.le_refl 0
  have l2 := push_length l1 a2
  have l3 : s3.contents.length ≤ 1 := by rw [Looks.same (op := .len) trivial a3]; exact l2
  have l4 := push_length l3 a4
  have l5 : s5.contents.length ≤ 2 := by rw [Looks.same (op := .len) trivial a5]; exact l4
  have l6 := pop_length l5 a6
  have l7 : s7.contents.length ≤ 1 := by rw [Looks.same (op := .len) trivial a7]; exact l6
  refine ⟨⟨⟨(he 7).1, fun _ => (he 7).2⟩, trivial, shrink_one (isAlign_one_of hhi) l7⟩, fun _ v8 s8 _ _ _ => ?_⟩
  refine along_any fun q hq v xs => ?_
  obtain ⟨⟨i, h1⟩, h2⟩ := mem_inTurn hq
  clear hq
  obtain ⟨env, op⟩ := q
  dsimp only at h1 h2 ⊢
  subst h1
  refine ⟨⟨(he (i + 8)).1, fun _ => (he (i + 8)).2⟩, ?_⟩
  simp only [List.mem_cons, List.not_mem_nil, or_false] at h2
  rcases h2 with rfl | rfl | rfl | rfl | rfl | rfl | rfl | rfl
  · exact ⟨hw.2.2, insert_front h0⟩
  · exact ⟨trivial, trivial⟩
  · exact ⟨trivial, trivial⟩
  · exact ⟨trivial, trivial⟩
  · exact ⟨trivial, okRun_next 3 _ _⟩
  · exact ⟨trivial, fun _ _ => .inr (.inl rfl), fun h => nomatch h⟩
  · exact ⟨trivial, trivial⟩
  · exact ⟨trivial, trivial⟩

theorem sized_along (hhi : IsAlign c hi) {x y : Val T β} {envs : Nat → Env (Val T β)} (he : ∀ i, (envs i).Valid ∧ (envs i).Exact)
    (hw : (Test.sized x y).WF c) (hx : UVec.Addable lo hi x.size x.align) (h0 : 0 < y.size)
    {v : UVec T β} (ht : Tracks (unalignedM c T) (UVec.Holds c) v ⟨[], []⟩) (hl : lo ≤ v.align ∧ v.align ≤ hi) :
    Along c (unalignedM c T) (UVec.Holds c) (fun env op v xs => (env.Valid ∧ (True → env.Exact)) ∧ op.WF c xs ∧ UVec.Covered True c env op v xs)
      (inTurn envs (Test.sized x y).ops) v ⟨[], []⟩ := by
  refine plain_step hhi (he 0) ht trivial trivial hl fun _ v1 s1 ht hl a1 => ?_
  refine plain_step hhi (he 1) ht hw.1 hx hl fun _ v2 s2 ht hl a2 => ?_
  refine plain_step hhi (he 2) ht trivial trivial hl fun _ v3 s3 ht hl a3 => ?_
  refine plain_step hhi (he 3) ht trivial trivial hl fun _ v4 s4 ht hl a4 => ?_
  have l1 : s1.contents.length ≤ 0 := by rw [Looks.same (op := .len) trivial a1]; exact Nat.le_refl 0
  have l2 := push_length l1 a2
  have l3 : s3.contents.length ≤ 1 := by rw [Looks.same (op := .len) trivial a3]; exact l2
  have l4 : s4.contents.length ≤ 1 := by rw [Looks.same (op := .index 0) trivial a4]; exact l3
  refine ⟨⟨⟨(he 4).1, fun _ => (he 4).2⟩, trivial, shrink_one (isAlign_one_of hhi) l4⟩, fun _ v5 s5 _ _ _ => ?_⟩
  refine along_any fun q hq v xs => ?_
  obtain ⟨⟨i, h1⟩, h2⟩ := mem_inTurn hq
  clear hq
  obtain ⟨env, op⟩ := q
  dsimp only at h1 h2 ⊢
  subst h1
  refine ⟨⟨(he (i + 5)).1, fun _ => (he (i + 5)).2⟩, ?_⟩
  simp only [List.mem_cons, List.not_mem_nil, or_false] at h2
  rcases h2 with rfl | rfl | rfl
  · exact ⟨hw.2, fun _ h1 => absurd h1 (Nat.ne_of_gt h0), fun h => absurd trivial h⟩
  · exact ⟨trivial, trivial⟩
  · exact ⟨trivial, trivial⟩

end
end Docs
end Verif
