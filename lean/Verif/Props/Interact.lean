import Verif.Proofs.Interact
import Verif.Props.Same

/-!
# C66: programs that decide what to do next by what they have observed

The programs of C36, C37 and C64 are lists of calls. A real program looks at what it gets from the vector, and then decides. Here the
next call is any function of all that has been observed so far (so are the answers of the allocator and the destructors that panic), and
the program need not end: the theorems are about its first `n` calls, for all `n`.
-/

namespace Verif
section
variable {β : Type} {c d : Cfg} {A : ATy} {T : UTy} {sz al : Nat}

/-- C66: whatever the program does, it is one of the fixed programs: there is a list of calls that leads to the same result, and each
of its calls is the one that the program chose after the observations before it. So all theorems about lists of calls are
about programs that decide as well. -/
theorem C66_script {V : Type} {M : Machine V T β} (σ : Strategy T β) (n : Nat) (v : V) :
    ∃ p, p.length ≤ n ∧ interact c M σ n [] v = runOps c M p v ∧
      ∀ os v', runOps c M p v = .ok os v' → ∀ i, i < p.length → σ (os.take i) = p[i]? := by
  obtain ⟨h1, h2⟩ := interact_script (c := c) (M := M) (σ := σ) n [] v
  refine ⟨script c M σ n [] v, script_length n [] v, ?_, h2⟩
  rw [h1]
  exact Exec.bind_pure_apply _ _

/-- C66: a program may be interrupted after `n` calls and continued, from what it has observed. -/
theorem C66_stages {V : Type} {M : Machine V T β} (σ : Strategy T β) (n m : Nat) (h : List (Out T β)) (v : V) :
    interact c M σ (n + m) h v = (interact c M σ n h >>= interact c M σ m) v :=
  interact_add n m h v

variable [Inhabited β]

/-- C66, statically aligned elements: a program that makes covered calls has no undefined behaviour and no panic escapes from it; what
it observes is what a list would show to the same program, except that calls that need memory may fail; and if memory is never
short, without exception. Only a failing allocation or a rejected value whose destructor panics ends the process. -/
theorem C66_program_aligned_partial (hA : A.Lawful c) {v : AVec A β} {s : Ideal A.ty β} (h : Tracks (alignedM c A) (AVec.Holds c) v s)
    (σ : Strategy A.ty β) (n : Nat)
    (hs : ThroughoutList (fun env op xs => env.Valid ∧ op.WF c xs ∧ AVec.Covered env op xs) σ n [] s) :
    (interact c (alignedM c A) σ n [] v).Meets
      (fun os v' => ∃ s', Tracks (alignedM c A) (AVec.Holds c) v' s' ∧ ExplainsFor σ n [] s os s' ∧
        (Throughout c (alignedM c A) (AVec.Holds c) (fun env op v xs => ¬ AVec.Short c env op v xs) σ n [] v s →
          (os, s') = listInteract σ n [] s))
      (fun _ => False)
      (¬ Throughout c (alignedM c A) (AVec.Holds c) (fun env op v xs => ¬ AVec.Short c env op v xs ∧ ¬ op.Dies env.dropPanics xs)
        σ n [] v s) :=
  (AVec.client hA).interacts n [] v s h (ThroughoutList.throughout (fun _ _ _ _ h => h) hs)

/-- C66, sized elements. -/
theorem C66_program_sized_partial {v : SVec sz al β} {s : Ideal (sizedTy sz al) β} (h : Tracks (sizedM c sz al) (SVec.Holds c) v s)
    (σ : Strategy (sizedTy sz al) β) (n : Nat)
    (hs : ThroughoutList (fun env op xs => op.WF c xs ∧ SVec.Covered env op xs) σ n [] s) :
    (interact c (sizedM c sz al) σ n [] v).Meets
      (fun os v' => ∃ s', Tracks (sizedM c sz al) (SVec.Holds c) v' s' ∧ ExplainsFor σ n [] s os s' ∧
        (Throughout c (sizedM c sz al) (SVec.Holds c) (fun env op v xs => ¬ SVec.Short c env op v xs) σ n [] v s →
          (os, s') = listInteract σ n [] s))
      (fun _ => False)
      (¬ Throughout c (sizedM c sz al) (SVec.Holds c) (fun env op v xs => ¬ SVec.Short c env op v xs ∧ ¬ op.Dies env.dropPanics xs)
        σ n [] v s) :=
  SVec.client.interacts n [] v s h (ThroughoutList.throughout (fun _ _ _ _ h => ⟨trivial, h⟩) hs)

/-- C66, dynamically aligned elements. -/
theorem C66_program_unaligned_partial {G : Prop} {v : UVec T β} {s : Ideal T β}
    (h : Tracks (unalignedM c T) (UVec.Represents G c) v s) (σ : Strategy T β) (n : Nat)
    (hs : Throughout c (unalignedM c T) (UVec.Represents G c)
      (fun env op v xs => (env.Valid ∧ (G → env.Exact)) ∧ op.WF c xs ∧ UVec.Covered G c env op v xs) σ n [] v s) :
    (interact c (unalignedM c T) σ n [] v).Meets
      (fun os v' => ∃ s', Tracks (unalignedM c T) (UVec.Represents G c) v' s' ∧ ExplainsFor σ n [] s os s' ∧
        (Throughout c (unalignedM c T) (UVec.Represents G c) (fun env op v xs => ¬ UVec.Short c env op v xs) σ n [] v s →
          (os, s') = listInteract σ n [] s))
      (fun _ => False)
      (¬ Throughout c (unalignedM c T) (UVec.Represents G c) (fun env op v xs => ¬ UVec.Short c env op v xs ∧ ¬ op.Dies env.dropPanics xs)
        σ n [] v s) :=
  (UVec.client G c T).interacts n [] v s h hs

/-- C66, statically aligned elements: when the program ends and the vector is dropped, every value the program gave to the vector
has been dropped exactly once, or was moved out or forgotten, and the memory is free. -/
theorem C66_life_aligned_partial (hA : A.Lawful c) (σ : Strategy A.ty β) (n : Nat)
    (hs : ThroughoutList (fun env op xs => env.Valid ∧ op.WF c xs ∧ AVec.Covered env op xs) σ n [] ⟨[], []⟩)
    (env : Env (Val A.ty β)) (hp : ∀ x, env.dropPanics x = false) {os : List (Out A.ty β)} {v : AVec A β}
    (hr : interact c (alignedM c A) σ n [] AVec.new = .ok os v) :
    ∃ p v' s' g r, (∀ i, i < p.length → σ (os.take i) = p[i]?) ∧ (alignedM c A).drop env v = .ok () v' ∧
      Ledger p ⟨[], []⟩ os s' g r ∧ List.Perm g (v'.drops ++ r) ∧ v'.heap.block = none ∧ v'.heap.leaks = 0 := by
  have h := C66_program_aligned_partial hA (v := AVec.new) (s := ⟨[], []⟩) ⟨AVec.new_holds hA.fits, rfl⟩ σ n hs
  rw [hr] at h
  obtain ⟨s', ⟨h1, h2⟩, h3, _⟩ := h
  obtain ⟨p, os', h4, h5, h6⟩ := h3.explains
  rw [List.nil_append] at h4
  subst h4
  obtain ⟨v', h7, h8, h9, h10⟩ := C21_drop_aligned_returns hA.fits h1 (env := env) (fun x _ => hp x)
  obtain ⟨g, r, h11, h12⟩ := C37_balance h5
  refine ⟨p, v', s', g, r, h6, h7, h11, ?_, h9, h10⟩
  rw [h8, show v.drops = s'.dropped from h2]
  simp only [List.append_nil] at h12
  exact h12.trans ((List.perm_append_comm).append_right r)

/-- C66, dynamically aligned elements. -/
theorem C66_life_unaligned_partial {G : Prop} (hu : IsAlign c c.usizeAlign) (σ : Strategy T β) (n : Nat)
    (hs : Throughout c (unalignedM c T) (UVec.Represents G c)
      (fun env op v xs => (env.Valid ∧ (G → env.Exact)) ∧ op.WF c xs ∧ UVec.Covered G c env op v xs) σ n [] (UVec.newAlignPtr c) ⟨[], []⟩)
    (env : Env (Val T β)) (hp : ∀ x, env.dropPanics x = false) {os : List (Out T β)} {v : UVec T β}
    (hr : interact c (unalignedM c T) σ n [] (UVec.newAlignPtr c) = .ok os v) :
    ∃ p v' s' g r, (∀ i, i < p.length → σ (os.take i) = p[i]?) ∧ (unalignedM c T).drop env v = .ok () v' ∧
      Ledger p ⟨[], []⟩ os s' g r ∧ List.Perm g (v'.drops ++ r) ∧ v'.heap.block = none ∧ v'.heap.leaks = 0 := by
  have h := C66_program_unaligned_partial (v := UVec.newAlignPtr c) (s := ⟨[], []⟩) ⟨UVec.newAlignPtr_represents hu, rfl⟩ σ n hs
  rw [hr] at h
  obtain ⟨s', ⟨h1, h2⟩, h3, _⟩ := h
  obtain ⟨p, os', h4, h5, h6⟩ := h3.explains
  rw [List.nil_append] at h4
  subst h4
  obtain ⟨v', h7, h8, h9, h10⟩ := C21_drop_unaligned_returns h1 (env := env) (fun x _ => hp x)
  obtain ⟨g, r, h11, h12⟩ := C37_balance h5
  refine ⟨p, v', s', g, r, h6, h7, h11, ?_, h9, h10⟩
  rw [h8, show v.drops = s'.dropped from h2]
  simp only [List.append_nil] at h12
  exact h12.trans ((List.perm_append_comm).append_right r)

/-- C66: no program that makes covered calls and is never short of memory can find out whether its vector is of the implementation
for statically aligned elements or of the general one. -/
theorem C66_aligned_unaligned_partial {G : Prop} (hA : A.Lawful c) {v : AVec A β} {w : UVec A.ty β} {s : Ideal A.ty β}
    (hv : Tracks (alignedM c A) (AVec.Holds c) v s) (hw : Tracks (unalignedM d A.ty) (UVec.Represents G d) w s)
    {σ τ : Strategy A.ty β} (hc : SameStrategy σ τ) {n : Nat}
    (hs : ThroughoutList (fun env op xs => env.Valid ∧ op.WF c xs ∧ AVec.Covered env op xs) σ n [] s)
    (hs' : Throughout d (unalignedM d A.ty) (UVec.Represents G d) (fun env op v xs => (env.Valid ∧ (G → env.Exact)) ∧ op.WF d xs ∧
      UVec.Covered G d env op v xs) τ n [] w s)
    (hq : Throughout c (alignedM c A) (AVec.Holds c) (fun env op v xs => ¬ AVec.Short c env op v xs ∧ ¬ op.Dies env.dropPanics xs)
      σ n [] v s)
    (hq' : Throughout d (unalignedM d A.ty) (UVec.Represents G d) (fun env op v xs => ¬ UVec.Short d env op v xs ∧
      ¬ op.Dies env.dropPanics xs) τ n [] w s) :
    Indistinguishable (alignedM c A) (unalignedM d A.ty) (AVec.Holds c) (UVec.Represents G d) (interact c (alignedM c A) σ n [] v)
      (interact d (unalignedM d A.ty) τ n [] w) :=
  (AVec.client hA).interacts_agree (UVec.client G d A.ty) hc hv hw (ThroughoutList.throughout (fun _ _ _ _ h => h) hs) hs' hq hq'

/-- C66: nor whether it is `Vec` or the implementation for statically aligned elements. -/
theorem C66_sized_aligned_partial (hal : IsAlign d al) {v : SVec sz al β} {w : AVec (ATy.sized sz al) β} {s : Ideal (sizedTy sz al) β}
    (hv : Tracks (sizedM c sz al) (SVec.Holds c) v s) (hw : Tracks (alignedM d (ATy.sized sz al)) (AVec.Holds d) w s)
    {σ τ : Strategy (sizedTy sz al) β} (hc : SameStrategy σ τ) {n : Nat}
    (hs : ThroughoutList (fun env op xs => op.WF c xs ∧ SVec.Covered env op xs) σ n [] s)
    (hs' : ThroughoutList (fun env op xs => env.Valid ∧ op.WF d xs ∧ AVec.Covered (A := ATy.sized sz al) env op xs) τ n [] s)
    (hq : Throughout c (sizedM c sz al) (SVec.Holds c) (fun env op v xs => ¬ SVec.Short c env op v xs ∧ ¬ op.Dies env.dropPanics xs)
      σ n [] v s)
    (hq' : Throughout d (alignedM d (ATy.sized sz al)) (AVec.Holds d) (fun env op v xs => ¬ AVec.Short d env op v xs ∧
      ¬ op.Dies env.dropPanics xs) τ n [] w s) :
    Indistinguishable (sizedM c sz al) (alignedM d (ATy.sized sz al)) (SVec.Holds c) (AVec.Holds d) (interact c (sizedM c sz al) σ n [] v)
      (interact d (alignedM d (ATy.sized sz al)) τ n [] w) :=
  SVec.client.interacts_agree (AVec.client (ATy.sized_lawful hal)) hc hv hw (ThroughoutList.throughout (fun _ _ _ _ h => ⟨trivial, h⟩) hs)
    (ThroughoutList.throughout (fun _ _ _ _ h => h) hs') hq hq'

/-- C66: nor whether it is `Vec` or the general implementation. -/
theorem C66_sized_unaligned_partial {G : Prop} {v : SVec sz al β} {w : UVec (sizedTy sz al) β} {s : Ideal (sizedTy sz al) β}
    (hv : Tracks (sizedM c sz al) (SVec.Holds c) v s) (hw : Tracks (unalignedM d (sizedTy sz al)) (UVec.Represents G d) w s)
    {σ τ : Strategy (sizedTy sz al) β} (hc : SameStrategy σ τ) {n : Nat}
    (hs : ThroughoutList (fun env op xs => op.WF c xs ∧ SVec.Covered env op xs) σ n [] s)
    (hs' : Throughout d (unalignedM d (sizedTy sz al)) (UVec.Represents G d) (fun env op v xs => (env.Valid ∧ (G → env.Exact)) ∧ op.WF d xs ∧
      UVec.Covered G d env op v xs) τ n [] w s)
    (hq : Throughout c (sizedM c sz al) (SVec.Holds c) (fun env op v xs => ¬ SVec.Short c env op v xs ∧ ¬ op.Dies env.dropPanics xs)
      σ n [] v s)
    (hq' : Throughout d (unalignedM d (sizedTy sz al)) (UVec.Represents G d) (fun env op v xs => ¬ UVec.Short d env op v xs ∧
      ¬ op.Dies env.dropPanics xs) τ n [] w s) :
    Indistinguishable (sizedM c sz al) (unalignedM d (sizedTy sz al)) (SVec.Holds c) (UVec.Represents G d)
      (interact c (sizedM c sz al) σ n [] v) (interact d (unalignedM d (sizedTy sz al)) τ n [] w) :=
  SVec.client.interacts_agree (UVec.client G d (sizedTy sz al)) hc hv hw (ThroughoutList.throughout (fun _ _ _ _ h => ⟨trivial, h⟩) hs) hs'
    hq hq'

end

/-! ## Examples -/
section
open Sample

/-- A program that never ends: it asks for the length, and then pushes as many bytes as there are elements. -/
def growing : Strategy Bytes.ty Nat := fun h =>
  match h.getLast? with
  | some (.number k) => some (env, .push (bytes (List.replicate (k % 8) k)))
  | _ => some (env, .len)

theorem growing_covered : ∀ n h s, ThroughoutList (fun env op xs => env.Valid ∧ op.WF c64d xs ∧ AVec.Covered (A := Bytes) env op xs) growing n h s
  | 0, _, _ => trivial
  | n + 1, h, s => by
    intro e op he
    refine ⟨?_, fun _ _ _ => growing_covered n _ _⟩
    unfold growing at he
    split at he
    · obtain ⟨rfl, rfl⟩ := Prod.mk.inj (Option.some.inj he)
      refine ⟨env_valid, bytes_wf _ ?_ _ (.inr rfl), trivial⟩
      rw [List.length_replicate]
      exact Nat.le_trans (Nat.le_of_lt (Nat.mod_lt _ (by decide))) (by decide : 8 ≤ c64.isizeMax)
    · obtain ⟨rfl, rfl⟩ := Prod.mk.inj (Option.some.inj he)
      exact ⟨env_valid, trivial, trivial⟩

example (n : Nat) := C66_program_aligned_partial (bytes_lawful c64d (.inr rfl)) (v := vecA) (s := ⟨listA, vecA.drops⟩) ⟨vecA_holds c64d (.inr rfl), rfl⟩ growing n (growing_covered n [] _)
example (n : Nat) (os : List (Out Bytes.ty Nat)) (v : AVec Bytes Nat) := C66_life_aligned_partial (bytes_lawful c64d (.inr rfl)) growing n (growing_covered n [] _) env (fun _ => rfl) (os := os) (v := v)
example : observed (interact c64d (alignedM c64d Bytes) growing 7 [] AVec.new) = some [[4, 0], [0], [4, 1], [0], [4, 2], [0], [4, 3]] := by
  decide +kernel

/-- Take out the elements, until there is none left. -/
def draining : Strategy Dyn Nat := fun h =>
  match h.getLast? with
  | some .nothing => none
  | _ => some (env, .pop .take)

theorem draining_covered : ∀ n h s, ThroughoutList (fun env op _ => (env.Valid ∧ (True → env.Exact)) ∧ op = .pop .take) draining n h s
  | 0, _, _ => trivial
  | n + 1, h, s => by
    intro e op he
    refine ⟨?_, fun _ _ _ => draining_covered n _ _⟩
    unfold draining at he
    split at he
    · exact nomatch he
    · obtain ⟨rfl, rfl⟩ := Prod.mk.inj (Option.some.inj he)
      exact ⟨⟨env_valid, fun _ => env_exact⟩, rfl⟩

example (n : Nat) := C66_program_unaligned_partial (G := True) (c := c64d) (v := vecU) (s := ⟨listU, vecU.drops⟩) ⟨vecU_holds c64d (.inr rfl), rfl⟩
  draining n (ThroughoutList.throughout (Q := fun env op _ => (env.Valid ∧ (True → env.Exact)) ∧ op = .pop .take)
    (fun _ _ _ _ h => ⟨h.1, by rw [h.2]; trivial, by rw [h.2]; trivial⟩) (draining_covered n _ _))
example : observed (interact c64d (unalignedM c64d Dyn) draining 9 [] vecU) = some (listU.reverse.map (fun x => 5 :: x.bytes) ++ [[3]]) := by
  decide +kernel

/-- One push; then elements are popped, as long as the length is not 0. -/
def emptying : Strategy (sizedTy 2 1) Nat := fun h =>
  match h.getLast? with
  | none => some (env, .push ⟨(), [1, 2]⟩)
  | some (.number 0) => none
  | some (.number _) => some (env, .pop .take)
  | _ => some (env, .len)

theorem emptying_calls {h : List (Out (sizedTy 2 1) Nat)} (hh : h ≠ []) {e : Env (Val (sizedTy 2 1) Nat)} {op : Op (sizedTy 2 1) Nat}
    (he : emptying h = some (e, op)) : e = env ∧ (op = .len ∨ op = .pop .take) := by
  unfold emptying at he
  split at he
  · next h1 => exact absurd (List.getLast?_eq_none_iff.mp h1) hh
  · exact nomatch he
  · obtain ⟨rfl, rfl⟩ := Prod.mk.inj (Option.some.inj he); exact ⟨rfl, .inr rfl⟩
  · obtain ⟨rfl, rfl⟩ := Prod.mk.inj (Option.some.inj he); exact ⟨rfl, .inl rfl⟩

theorem emptying_first {e : Env (Val (sizedTy 2 1) Nat)} {op : Op (sizedTy 2 1) Nat} (he : emptying [] = some (e, op)) :
    e = env ∧ op = .push ⟨(), [1, 2]⟩ := by
  obtain ⟨rfl, rfl⟩ := Prod.mk.inj (Option.some.inj he); exact ⟨rfl, rfl⟩

theorem emptying_list {Q : Env (Val (sizedTy 2 1) Nat) → Op (sizedTy 2 1) Nat → List (Val (sizedTy 2 1) Nat) → Prop}
    (h1 : ∀ xs, Q env (.push ⟨(), [1, 2]⟩) xs) (h2 : ∀ xs, Q env .len xs) (h3 : ∀ xs, Q env (.pop .take) xs) :
    ∀ n h s, ThroughoutList Q emptying n h s
  | 0, _, _ => trivial
  | n + 1, h, s => by
    intro e op he
    refine ⟨?_, fun _ _ _ => emptying_list h1 h2 h3 n _ _⟩
    by_cases hh : h = []
    · subst hh
      obtain ⟨rfl, rfl⟩ := emptying_first he
      exact h1 _
    · obtain ⟨rfl, rfl | rfl⟩ := emptying_calls hh he
      · exact h2 _
      · exact h3 _

/-- There is never more than one element. -/
theorem emptying_short {V : Type} {M : Machine V (sizedTy 2 1) Nat} {H : V → List (Val (sizedTy 2 1) Nat) → Prop}
    {Q : Env (Val (sizedTy 2 1) Nat) → Op (sizedTy 2 1) Nat → V → List (Val (sizedTy 2 1) Nat) → Prop} {v : V}
    (h1 : Q env (.push ⟨(), [1, 2]⟩) v []) (h2 : ∀ op v xs, H v xs → xs.length ≤ 1 → op = .len ∨ op = .pop .take → Q env op v xs) :
    ∀ n, Throughout c64d M H Q emptying n [] v ⟨[], []⟩ := by
  have key : ∀ n h v s, h ≠ [] → H v s.contents → s.contents.length ≤ 1 → Throughout c64d M H Q emptying n h v s := by
    intro n
    induction n with
    | zero => exact fun _ _ _ _ _ _ => trivial
    | succ n ih =>
      intro h v s hh hv hs e op he
      obtain ⟨rfl, ho⟩ := emptying_calls hh he
      refine ⟨h2 _ _ _ hv hs ho, fun o v' s' _ ht ha => ih _ _ _ (by simp) ht.1 ?_⟩
      rcases ho with rfl | rfl
      · rcases ha with ha | ⟨_, ha, _⟩
        · obtain ⟨_, rfl⟩ := Prod.mk.inj ha; exact hs
        · exact ha.elim
      · rcases ha with ha | ⟨_, ha, _⟩
        · have h3 := congrArg (fun y => y.2.contents.length) ha
          obtain ⟨xs, ds⟩ := s
          rcases List.eq_nil_or_concat xs with rfl | ⟨ys, y, rfl⟩
          · exact Nat.le_trans (Nat.le_of_eq h3) (Nat.zero_le _)
          · refine Nat.le_trans (Nat.le_of_eq h3) ?_
            simp [Op.onList, Dst.onList] at hs ⊢
            simp [hs]
        · exact ha.elim
  intro n
  cases n with
  | zero => trivial
  | succ n =>
    intro e op he
    obtain ⟨rfl, rfl⟩ := emptying_first he
    refine ⟨h1, fun o v1 s1 _ ht1 ha1 => key _ _ _ _ (by simp) ht1.1 ?_⟩
    rcases ha1 with ha1 | ⟨_, _, _, ha1⟩
    · obtain ⟨_, rfl⟩ := Prod.mk.inj ha1; exact Nat.le_refl _
    · rw [ha1]; exact Nat.zero_le _

theorem emptying_sized_quiet (n : Nat) : Throughout c64d (sizedM c64d 2 1) (SVec.Holds c64d)
    (fun env op v xs => ¬ SVec.Short c64d env op v xs ∧ ¬ op.Dies env.dropPanics xs) emptying n [] SVec.new ⟨[], []⟩ := by
  have h : ∀ (v : SVec 2 1 Nat) xs, v.Holds c64d xs → xs.length ≤ 1 → ¬ v.NoSlot c64d (env (X := Val (sizedTy 2 1) Nat)) := by
    rintro v xs hv hx ⟨_, e, ⟨_, h1⟩ | h1⟩
    · rw [hv.len] at h1
      have : 2 < SVec.maxSlots c64d 2 := by decide
      omega
    · exact nomatch h1
  refine emptying_short ⟨h _ _ SVec.new_holds (Nat.zero_le _), id⟩ (fun op v xs hv hx hop => ?_) n
  rcases hop with rfl | rfl <;> exact ⟨id, id⟩

theorem emptying_aligned_quiet (n : Nat) : Throughout c64d (alignedM c64d (ATy.sized 2 1)) (AVec.Holds c64d)
    (fun env op v xs => ¬ AVec.Short c64d env op v xs ∧ ¬ op.Dies env.dropPanics xs) emptying n [] AVec.new ⟨[], []⟩ := by
  have h : ¬ AVec.Short (A := ATy.sized 2 1) c64d (env (X := Val (sizedTy 2 1) Nat)) (.push ⟨(), [1, 2]⟩) AVec.new [] := by
    rintro (⟨n, l, h | h⟩ | h | h)
    · exact nomatch h
    · exact nomatch h
    · exact absurd h (by decide)
    · exact absurd h (by decide)
  refine emptying_short ⟨h, id⟩
    (fun op v xs hv hx hop => ?_) n
  rcases hop with rfl | rfl
  all_goals exact ⟨id, id⟩

example (n : Nat) := C66_sized_aligned_partial (c := c64d) (d := c64d) (β := Nat) (sz := 2) (al := 1) ⟨0, by decide, rfl⟩ (v := SVec.new)
  (w := AVec.new) (s := ⟨[], []⟩) ⟨SVec.new_holds, rfl⟩ ⟨AVec.new_holds (ATy.sized_lawful ⟨0, by decide, rfl⟩).fits, rfl⟩ (σ := emptying)
  (τ := emptying) (fun _ => rfl) (n := n)
  (emptying_list (fun _ => ⟨progW_wf _ rfl, Nat.two_pos⟩) (fun _ => ⟨trivial, trivial⟩) (fun _ => ⟨trivial, trivial⟩) n _ _)
  (emptying_list (fun _ => ⟨env_valid, progW_wf _ rfl, trivial⟩) (fun _ => ⟨env_valid, trivial, trivial⟩)
    (fun _ => ⟨env_valid, trivial, trivial⟩) n _ _)
  (emptying_sized_quiet n) (emptying_aligned_quiet n)
example (n : Nat) := C66_program_sized_partial (c := c64d) (v := (SVec.new : SVec 2 1 Nat)) (s := ⟨[], []⟩) ⟨SVec.new_holds, rfl⟩ emptying n
  (emptying_list (fun _ => ⟨progW_wf _ rfl, Nat.two_pos⟩) (fun _ => ⟨trivial, trivial⟩) (fun _ => ⟨trivial, trivial⟩) n _ _)
example : observed (interact c64d (sizedM c64d 2 1) emptying 9 [] SVec.new) = some [[0], [4, 1], [5, 1, 2], [4, 0]] := by decide +kernel
example : observed (interact c64d (alignedM c64d (ATy.sized 2 1)) emptying 9 [] AVec.new) = some [[0], [4, 1], [5, 1, 2], [4, 0]] := by
  decide +kernel

/-- Find out the implementation: insert an element between two others, look at the one in front, and go on only if it is damaged. -/
def asking : Strategy (sizedTy 2 1) Nat := fun h =>
  match h with
  | [] => some (env, .push ⟨(), [1, 2]⟩)
  | [_] => some (env, .push ⟨(), [3, 4]⟩)
  | [_, _] => some (env, .insert 1 ⟨(), [5, 6]⟩)
  | [_, _, _] => some (env, .get 1)
  | [_, _, _, .value x] => if x.bytes = [5, 6] then none else some (env, .len)
  | _ => none

/-- C66 is false of `insert`: a program can find out that its vector is not a `Vec`, and can then behave in a different way. -/
theorem C66_counterexample :
    (observed (interact c64d (sizedM c64d 2 1) asking 9 [] SVec.new)).map List.length = some 4 ∧
    (observed (interact c64d (alignedM c64d (ATy.sized 2 1)) asking 9 [] AVec.new)).map List.length ≠ some 4 ∧
    (observed (interact c64d (unalignedM c64d (sizedTy 2 1)) asking 9 [] (UVec.newAlignPtr c64d))).map List.length ≠ some 4 := by
  decide +kernel

end
end Verif
