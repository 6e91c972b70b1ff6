import Verif.Spec.Docs
import Verif.Proofs.Plain
import Verif.Proofs.SeveralInst
import Verif.Proofs.Same

/-!
# The examples in the documentation: proofs
-/

namespace Verif
section
variable {V : Type} {T : UTy} {β : Type} {c : Cfg} {M : Machine V T β}

theorem listRun_append : ∀ (p q : List (Env (Val T β) × Op T β)) (s : Ideal T β),
    listRun (p ++ q) s = ((listRun p s).1 ++ (listRun q (listRun p s).2).1, (listRun q (listRun p s).2).2)
  | [], _, _ => rfl
  | (env, op) :: p, q, s => by
    have h := listRun_append p q (op.onList env.dropPanics s).2
    show (_ :: (listRun (p ++ q) _).1, (listRun (p ++ q) _).2) = _
    rw [h]; rfl

/-- If no call failed, then what has been observed is what a list shows. -/
theorem Explains.unfailed : ∀ {p : List (Env (Val T β) × Op T β)} {s s' : Ideal T β} {os : List (Out T β)}, Explains p s os s' →
    (∀ x ∈ p, ∀ q, x.2 ≠ .tryReserve q) → Out.panicked ∉ os → (os, s') = listRun p s
  | [], _, _, _, ⟨h1, h2⟩, _, _ => by rw [h1, h2]; rfl
  | (env, op) :: p, s, s', _, ⟨o, os, s1, rfl, ha, hr⟩, ht, hp => by
    have h1 := Explains.unfailed hr (fun x hx => ht x (List.mem_cons_of_mem _ hx)) (fun h => hp (List.mem_cons_of_mem _ h))
    rcases ha with ha | ⟨_, _, hf, _⟩
    · have h2 : o = (op.onList env.dropPanics s).1 := congrArg Prod.fst ha
      have h3 : s1 = (op.onList env.dropPanics s).2 := congrArg Prod.snd ha
      show _ = (_ :: (listRun p _).1, (listRun p _).2)
      rw [← h2, ← h3, ← h1]
    · have : o = .panicked := by
        cases op <;> first | exact hf | exact absurd rfl (ht _ (List.mem_cons_self ..) _)
      exact absurd (this ▸ List.mem_cons_self ..) hp

/-- If no command failed, then what has been observed is what lists show. -/
theorem ExplainsAll.unfailed : ∀ {p : List (Env (Val T β) × Cmd T β)} {s s' : Nat → Ideal T β} {os : List (Out T β)}, ExplainsAll p s os s' →
    (∀ x ∈ p, ∀ k q, x.2 ≠ .call k (.tryReserve q)) → Out.panicked ∉ os → (os, s') = listsRun p s
  | [], _, _, _, ⟨h1, h2⟩, _, _ => by rw [h1, h2]; rfl
  | (env, cmd) :: p, s, s', _, ⟨o, os, s1, rfl, ha, hr⟩, ht, hp => by
    have h1 := ExplainsAll.unfailed hr (fun x hx => ht x (List.mem_cons_of_mem _ hx)) (fun h => hp (List.mem_cons_of_mem _ h))
    have key : (o, s1) = cmd.onLists env.dropPanics s := by
      cases cmd with
      | call k op =>
        obtain ⟨u, ha, rfl⟩ := ha
        rcases ha with ha | ⟨_, _, hf, _⟩
        · show _ = ((op.onList env.dropPanics (s k)).1, put s k (op.onList env.dropPanics (s k)).2)
          rw [← ha]
        · have : o = .panicked := by
            cases op <;> first | exact hf | exact absurd rfl (ht _ (List.mem_cons_self ..) _ _)
          exact absurd (this ▸ List.mem_cons_self ..) hp
      | move t j q k =>
        rcases ha with ha | ⟨_, rfl, _⟩
        · exact ha
        · exact absurd (List.mem_cons_self ..) hp
    have h2 : o = (cmd.onLists env.dropPanics s).1 := congrArg Prod.fst key
    have h3 : s1 = (cmd.onLists env.dropPanics s).2 := congrArg Prod.snd key
    show _ = (_ :: (listsRun p _).1, (listsRun p _).2)
    rw [← h2, ← h3, ← h1]

/-- `next` until there is nothing left. -/
theorem visited_all (xs : List (Val T β)) : visited (List.replicate (xs.length + 1) .next) xs = (List.range xs.length).map some ++ [none] := by
  have key : ∀ l : List Nat, (ICall.specRun (List.replicate (l.length + 1) .next) l).1 = l.map some ++ [none] := by
    intro l
    induction l with
    | nil => rfl
    | cons a l ih =>
      show _ :: (ICall.specRun (List.replicate (l.length + 1) .next) l).1 = _
      rw [ih]; rfl
  have := key (List.range xs.length)
  rw [List.length_range] at this
  exact this

theorem okRun_next : ∀ (n : Nat) (b : Bool) (l : List Nat), ICall.OkRun (List.replicate n .next) b l
  | 0, _, _ => trivial
  | n + 1, _, _ => ⟨trivial, okRun_next n _ _⟩

namespace Docs

theorem inTurn_append {X Y : Type} : ∀ (envs : Nat → X) (l m : List Y), inTurn envs (l ++ m) = inTurn envs l ++ inTurn (fun i => envs (i + l.length)) m
  | _, [], _ => rfl
  | envs, y :: l, m => by
    show _ :: inTurn _ (l ++ m) = _ :: _
    rw [inTurn_append]
    simp only [List.length_cons, Nat.add_assoc]
    rfl

theorem mem_inTurn {X Y : Type} : ∀ {envs : Nat → X} {l : List Y} {p : X × Y}, p ∈ inTurn envs l → (∃ i, p.1 = envs i) ∧ p.2 ∈ l
  | _, [], _, h => absurd h List.not_mem_nil
  | envs, y :: l, p, h => by
    rcases List.mem_cons.1 h with rfl | h
    · exact ⟨⟨0, rfl⟩, List.mem_cons_self ..⟩
    · obtain ⟨⟨i, hi⟩, h2⟩ := mem_inTurn h
      exact ⟨⟨i + 1, hi⟩, List.mem_cons_of_mem _ h2⟩

/-- A condition that does not depend on the list. -/
theorem along_all {Q : Env (Val T β) → Op T β → List (Val T β) → Prop} : ∀ {p : List (Env (Val T β) × Op T β)} {s : Ideal T β},
    (∀ x ∈ p, ∀ xs, Q x.1 x.2 xs) → AlongList Q p s
  | [], _, _ => trivial
  | (_, _) :: _, _, h => ⟨h _ (List.mem_cons_self ..) _, fun _ _ _ => along_all fun x hx => h x (List.mem_cons_of_mem _ hx)⟩

theorem alongAll_all {H : V → List (Val T β) → Prop} {Q : Env (Val T β) → Cmd T β → (Nat → V) → (Nat → List (Val T β)) → Prop}
    {I : (Nat → Ideal T β) → Prop} : ∀ {p : List (Env (Val T β) × Cmd T β)} {f : Nat → V} {s : Nat → Ideal T β}, I s →
      (∀ x ∈ p, ∀ s o s', I s → x.2.Allows True x.1.dropPanics s o s' → I s') →
      (∀ x ∈ p, ∀ f s, I s → Q x.1 x.2 f (listsOf s)) → AlongAll c M H Q p f s
  | [], _, _, _, _, _ => trivial
  | (_, _) :: _, _, _, hi, hk, h => ⟨h _ (List.mem_cons_self ..) _ _ hi, fun o _ s' _ _ ha =>
      alongAll_all (hk _ (List.mem_cons_self ..) _ o s' hi ha) (fun x hx => hk x (List.mem_cons_of_mem _ hx))
        fun x hx => h x (List.mem_cons_of_mem _ hx)⟩

theorem alongLists_all {Q : Env (Val T β) → Cmd T β → (Nat → List (Val T β)) → Prop} : ∀ {p : List (Env (Val T β) × Cmd T β)}
    {s : Nat → Ideal T β}, (∀ x ∈ p, ∀ s, Q x.1 x.2 s) → AlongLists Q p s
  | [], _, _ => trivial
  | (_, _) :: _, _, h => ⟨h _ (List.mem_cons_self ..) _, fun _ _ _ => alongLists_all fun x hx => h x (List.mem_cons_of_mem _ hx)⟩

theorem listRun_pushes : ∀ (envs : Nat → Env (Val T β)) (xs : List (Val T β)) (s : Ideal T β),
    listRun (inTurn envs (xs.map .push)) s = (List.replicate xs.length .done, ⟨s.contents ++ xs, s.dropped⟩)
  | _, [], s => by show ([], s) = _; simp
  | envs, x :: xs, s => by
    have := listRun_pushes (fun i => envs (i + 1)) xs ⟨s.contents ++ [x], s.dropped⟩
    show (_ :: (listRun (inTurn (fun i => envs (i + 1)) (xs.map .push)) ⟨s.contents ++ [x], s.dropped⟩).1,
      (listRun (inTurn (fun i => envs (i + 1)) (xs.map .push)) ⟨s.contents ++ [x], s.dropped⟩).2) = _
    rw [this]
    simp [List.replicate_succ]
    rfl

theorem values_all (xs : List (Val T β)) :
    ((List.range xs.length).map some ++ [none]).map (fun o : Option Nat => o.bind (xs[·]?)) = xs.map some ++ [none] := by
  rw [List.map_append]
  congr 1
  apply List.ext_getElem
  · simp
  · intro i h1 h2
    simp at h1
    simp

/-- What the examples do to a list. -/
theorem Ex.listRun_eq (e : Ex T β) (envs : Nat → Env (Val T β)) (hd : ∀ i x, (envs i).dropPanics x = false) :
    listRun (inTurn envs e.ops) ⟨[], []⟩ = (e.shows, ⟨e.leaves, e.drops⟩) := by
  have hv : ∀ (xs : List (Val T β)) (n : Nat), n = xs.length + 1 →
      (visited (List.replicate n .next) xs).map (fun o : Option Nat => o.bind (xs[·]?)) = xs.map some ++ [none] := by
    rintro xs n rfl
    rw [visited_all, values_all]
  cases e with
  | push x => rfl
  | insert x y => rfl
  | remove x y => rfl
  | pop x y z =>
    simp [Ex.ops, inTurn, listRun, Op.onList, Dst.onList, hd, Ex.shows, Ex.leaves, Ex.drops]
    rfl
  | main xs x =>
    have h := hv (xs ++ [x]) (xs.length + 2) (by simp)
    show listRun (inTurn envs ((xs ++ [x]).map .push ++ _)) _ = _
    rw [inTurn_append, listRun_append, listRun_pushes]
    simp only [inTurn, listRun, Op.onList, Dst.onList, List.nil_append, h, List.getLast?_concat, List.dropLast_concat, List.length_append,
      List.length_cons, List.length_nil, Nat.zero_add]
    rfl
  | screen xs =>
    have h := hv xs (xs.length + 1) rfl
    show listRun (inTurn envs (xs.map .push ++ _)) _ = _
    rw [inTurn_append, listRun_append, listRun_pushes]
    simp only [inTurn, listRun, Op.onList, List.nil_append, h]
    rfl

theorem Ex.no_panic (e : Ex T β) : Out.panicked ∉ e.shows := by
  cases e <;> simp [Ex.shows]

/-- What the calls of the examples are. -/
theorem Ex.mem_ops {e : Ex T β} {op : Op T β} (h : op ∈ e.ops) : (∃ x ∈ e.vals, op = .push x ∨ op = .insert 0 x) ∨
    (∃ n, op = .iter (List.replicate n .next)) ∨ op = .len ∨ op = .pop .take ∨ op = .pop .drop ∨ op = .index 0 ∨ op = .remove 0 .take := by
  cases e with
  | push x => simp [Ex.ops] at h; rcases h with rfl | rfl <;> simp [Ex.vals]
  | insert x y => simp [Ex.ops] at h; rcases h with rfl | rfl | rfl <;> simp [Ex.vals]
  | remove x y => simp [Ex.ops] at h; rcases h with rfl | rfl | rfl <;> simp [Ex.vals]
  | pop x y z =>
    simp [Ex.ops] at h
    rcases h with rfl | rfl | rfl | rfl | rfl | rfl | rfl | rfl | rfl
    case inr.inr.inr.inr.inr.inl => exact .inr (.inl ⟨2, rfl⟩)
    all_goals simp [Ex.vals]
  | main xs x =>
    simp [Ex.ops] at h
    rcases h with ⟨y, hy, rfl⟩ | rfl | rfl | rfl | rfl | rfl
    case inr.inr.inl => exact .inr (.inl ⟨_, rfl⟩)
    all_goals simp [Ex.vals, *]
  | screen xs =>
    simp [Ex.ops] at h
    rcases h with ⟨y, hy, rfl⟩ | rfl
    · simp [Ex.vals, hy]
    · exact .inr (.inl ⟨_, rfl⟩)

/-- No call of the examples can be ended by a second panic. -/
theorem Ex.not_dies {e : Ex T β} {op : Op T β} (h : op ∈ e.ops) (panics : Val T β → Bool) (xs : List (Val T β)) : ¬ op.Dies panics xs := by
  rcases Ex.mem_ops h with ⟨x, _, rfl | rfl⟩ | ⟨n, rfl⟩ | rfl | rfl | rfl | rfl | rfl <;> intro hd
  case inl.inr => exact absurd hd.1 (Nat.not_lt_zero _)
  all_goals exact hd

theorem along_imp {H : V → List (Val T β) → Prop} {Q Q' : Env (Val T β) → Op T β → V → List (Val T β) → Prop} :
    ∀ {p : List (Env (Val T β) × Op T β)} {v : V} {s : Ideal T β}, (∀ x ∈ p, ∀ v xs, Q x.1 x.2 v xs → Q' x.1 x.2 v xs) →
      Along c M H Q p v s → Along c M H Q' p v s
  | [], _, _, _, _ => trivial
  | (_, _) :: _, _, _, hq, h => ⟨hq _ (List.mem_cons_self ..) _ _ h.1, fun o v' s' hr ht ha =>
      along_imp (fun x hx => hq x (List.mem_cons_of_mem _ hx)) (h.2 o v' s' hr ht ha)⟩

/-- A run that is as the list shows or fails for lack of memory. -/
theorem documented (K : Client c M) (e : Ex T β) {envs : Nat → Env (Val T β)} (hd : ∀ i x, (envs i).dropPanics x = false) {v : V}
    (hr : K.Rel v ⟨[], []⟩) (hs : K.Safe (inTurn envs e.ops) v ⟨[], []⟩) :
    (runOps c M (inTurn envs e.ops) v).Meets
      (fun os v' => (os = e.shows ∧ Tracks M K.H v' ⟨e.leaves, e.drops⟩) ∨ (.panicked ∈ os ∧ ¬ K.Plenty (inTurn envs e.ops) v ⟨[], []⟩))
      (fun _ => False) (¬ K.Plenty (inTurn envs e.ops) v ⟨[], []⟩) := by
  refine (K.history _ v _ hr hs).mono ?_ (fun _ h => h) ?_
  · rintro os v' ⟨s', h1, h2, h3⟩
    rw [e.listRun_eq envs hd] at h3
    by_cases hp : Out.panicked ∈ os
    · refine .inr ⟨hp, fun hq => ?_⟩
      rw [(Prod.mk.inj (h3 hq)).1] at hp
      exact e.no_panic hp
    · have := h2.unfailed (fun x hx q h => by
        rcases Ex.mem_ops (mem_inTurn hx).2 with ⟨x, _, h' | h'⟩ | ⟨n, h'⟩ | h' | h' | h' | h' | h' <;> rw [h'] at h <;> cases h) hp
      rw [e.listRun_eq envs hd] at this
      obtain ⟨rfl, rfl⟩ := Prod.mk.inj this
      exact .inl ⟨rfl, h1⟩
  · exact fun h hp => h (along_imp (fun x hx _ _ h => ⟨h, Ex.not_dies (mem_inTurn hx).2 _ _⟩) hp)

/-! ## Two vectors -/

/-- The lists at the end. -/
def Ex2.final (e : Ex2 T β) : Nat → Ideal T β := fun k => ⟨if k = 0 then e.leaves.1 else if k = 1 then e.leaves.2 else [], []⟩

theorem Ex2.listsRun_eq (e : Ex2 T β) (envs : Nat → Env (Val T β)) :
    listsRun (inTurn envs e.cmds) (fun _ => ⟨[], []⟩) = (e.shows, e.final) := by
  cases e with
  | insertWith a b d =>
    refine Prod.ext rfl (funext fun k => ?_)
    simp [Ex2.cmds, inTurn, listsRun, Cmd.onLists, Op.onList, Take.pick, Put.place, put, Ex2.final, Ex2.leaves]
    split
    · subst_vars; rfl
    · split <;> rfl
  | pushWith a b =>
    refine Prod.ext rfl (funext fun k => ?_)
    simp [Ex2.cmds, inTurn, listsRun, Cmd.onLists, Op.onList, Take.pick, Put.place, put, Ex2.final, Ex2.leaves]
    split
    · subst_vars; rfl
    · split <;> rfl

theorem Ex2.no_panic (e : Ex2 T β) : Out.panicked ∉ e.shows := by
  cases e <;> simp [Ex2.shows]

/-- What the commands of the examples are. -/
theorem Ex2.mem_cmds {e : Ex2 T β} {cmd : Cmd T β} (h : cmd ∈ e.cmds) : (∃ k, ∃ x ∈ e.vals, cmd = .call k (.push x)) ∨
    (∃ k, cmd = .call k .len) ∨ (∃ k, cmd = .call k (.index 0)) ∨ cmd = .move .last 0 (.insert 0) 1 ∨ cmd = .move .last 0 .push 1 := by
  cases e with
  | insertWith a b d =>
    simp [Ex2.cmds] at h
    rcases h with rfl | rfl | rfl | rfl | rfl | rfl | rfl
    · exact .inl ⟨0, a, by simp [Ex2.vals], rfl⟩
    · exact .inl ⟨0, b, by simp [Ex2.vals], rfl⟩
    · exact .inl ⟨1, d, by simp [Ex2.vals], rfl⟩
    all_goals simp
  | pushWith a b =>
    simp [Ex2.cmds] at h
    rcases h with rfl | rfl | rfl | rfl | rfl
    · exact .inl ⟨0, a, by simp [Ex2.vals], rfl⟩
    · exact .inl ⟨0, b, by simp [Ex2.vals], rfl⟩
    all_goals simp

/-- All elements satisfy `R`. -/
def Everywhere (R : Val T β → Prop) (s : Nat → Ideal T β) : Prop := ∀ k, ∀ x ∈ (s k).contents, R x

theorem everywhere_put {R : Val T β → Prop} {s : Nat → Ideal T β} (h : Everywhere R s) {k : Nat} {u : Ideal T β} (hu : ∀ x ∈ u.contents, R x) :
    Everywhere R (put s k u) := by
  intro j x hx
  unfold put at hx
  split at hx
  · exact hu x hx
  · exact h j x hx

theorem pick_last {xs ys : List (Val T β)} {x : Val T β} (h : Take.last.pick xs = some (x, ys)) : xs = ys ++ [x] := by
  unfold Take.pick at h
  obtain ⟨y, h1, h2⟩ := Option.map_eq_some_iff.1 h
  obtain ⟨rfl, rfl⟩ := Prod.mk.inj h2
  have hne : xs ≠ [] := by intro h; subst h; cases h1
  have h3 := List.dropLast_concat_getLast hne
  rw [List.getLast?_eq_some_getLast hne] at h1
  rw [Option.some.inj h1] at h3
  exact h3.symm

theorem Ex2.everywhere {R : Val T β → Prop} {e : Ex2 T β} (hR : ∀ x ∈ e.vals, R x) {cmd : Cmd T β} (h : cmd ∈ e.cmds) {panics : Val T β → Bool}
    {s s' : Nat → Ideal T β} {o : Out T β} (hs : Everywhere R s) (ha : cmd.Allows True panics s o s') : Everywhere R s' := by
  have hmove : ∀ p : Put, (p = .insert 0 ∨ p = .push) → (Cmd.move .last 0 p 1).Allows True panics s o s' → Everywhere R s' := by
    intro p hp ha
    rcases ha with ha | ⟨_, _, x, ys, zs, h1, h2, rfl⟩
    · unfold Cmd.onLists at ha
      dsimp only at ha
      cases h1 : Take.last.pick (s 0).contents with
      | none => rw [h1] at ha; cases ha; exact hs
      | some q =>
        obtain ⟨x, ys⟩ := q
        rw [h1] at ha
        dsimp only at ha
        have h0 := pick_last h1
        have hx : R x := hs 0 x (by rw [h0]; simp)
        have hy : ∀ y ∈ ys, R y := fun y hy => hs 0 y (by rw [h0]; simp [hy])
        cases h2 : p.place x (s 1).contents with
        | none =>
          rw [h2] at ha; cases ha
          exact everywhere_put hs hy
        | some zs =>
          rw [h2] at ha; cases ha
          refine everywhere_put (everywhere_put hs hy) fun z hz => ?_
          rcases hp with rfl | rfl
          · have h3 : some (x :: (s 1).contents) = some zs := h2
            cases h3
            rcases List.mem_cons.1 hz with rfl | hz
            · exact hx
            · exact hs 1 z hz
          · have h3 : some ((s 1).contents ++ [x]) = some zs := h2
            cases h3
            rcases List.mem_append.1 hz with hz | hz
            · exact hs 1 z hz
            · rw [List.mem_singleton.1 hz]; exact hx
    · exact everywhere_put hs fun y hy => hs 0 y (List.dropLast_subset _ hy)
  rcases Ex2.mem_cmds h with ⟨k, x, hx, rfl⟩ | ⟨k, rfl⟩ | ⟨k, rfl⟩ | rfl | rfl
  · obtain ⟨u, h1 | ⟨_, _, _, h1⟩, rfl⟩ := ha
    · obtain ⟨_, rfl⟩ := Prod.mk.inj h1
      refine everywhere_put hs fun y hy => ?_
      rcases List.mem_append.1 hy with hy | hy
      · exact hs k y hy
      · rw [List.mem_singleton.1 hy]; exact hR x hx
    · subst h1; exact everywhere_put hs (hs k)
  · obtain ⟨u, h1 | ⟨_, h1, _⟩, rfl⟩ := ha
    · obtain ⟨_, rfl⟩ := Prod.mk.inj h1; exact everywhere_put hs (hs k)
    · exact h1.elim
  · obtain ⟨u, h1 | ⟨_, h1, _⟩, rfl⟩ := ha
    · have : u = s k := by
        have h2 : u = ((Op.index 0).onList panics (s k)).2 := congrArg Prod.snd h1
        rw [h2]; unfold Op.onList; dsimp only; split <;> rfl
      rw [this]; exact everywhere_put hs (hs k)
    · exact h1.elim
  · exact hmove _ (.inl rfl) ha
  · exact hmove _ (.inr rfl) ha

theorem Ex2.not_dies {e : Ex2 T β} {cmd : Cmd T β} (h : cmd ∈ e.cmds) (panics : Val T β → Bool) (s : Nat → List (Val T β)) :
    ¬ cmd.Dies panics s := by
  rcases Ex2.mem_cmds h with ⟨k, x, _, rfl⟩ | ⟨k, rfl⟩ | ⟨k, rfl⟩ | rfl | rfl <;> intro hd
  case inr.inr.inr.inl =>
    obtain ⟨_, _, _, h, _⟩ := hd
    have h : some _ = none := h
    cases h
  case inr.inr.inr.inr =>
    obtain ⟨_, _, _, h, _⟩ := hd
    cases h
  all_goals exact hd

theorem alongAll_imp {H : V → List (Val T β) → Prop} {Q Q' : Env (Val T β) → Cmd T β → (Nat → V) → (Nat → List (Val T β)) → Prop} :
    ∀ {p : List (Env (Val T β) × Cmd T β)} {f : Nat → V} {s : Nat → Ideal T β}, (∀ x ∈ p, ∀ f s, Q x.1 x.2 f s → Q' x.1 x.2 f s) →
      AlongAll c M H Q p f s → AlongAll c M H Q' p f s
  | [], _, _, _, _ => trivial
  | (_, _) :: _, _, _, hq, h => ⟨hq _ (List.mem_cons_self ..) _ _ h.1, fun o v' s' hr ht ha =>
      alongAll_imp (fun x hx => hq x (List.mem_cons_of_mem _ hx)) (h.2 o v' s' hr ht ha)⟩

/-- The same for two vectors. -/
theorem documented2 (e : Ex2 T β) {envs : Nat → Env (Val T β)} {H : V → List (Val T β) → Prop} {f : Nat → V}
    {L : Env (Val T β) → Cmd T β → (Nat → V) → (Nat → List (Val T β)) → Prop}
    (h : (runCmds c M (inTurn envs e.cmds) f).Meets
      (fun os f' => ∃ s', TracksAll M H f' s' ∧ ExplainsAll (inTurn envs e.cmds) (fun _ => ⟨[], []⟩) os s' ∧
        (AlongAll c M H (fun env cmd f s => ¬ L env cmd f s) (inTurn envs e.cmds) f (fun _ => ⟨[], []⟩) →
          (os, s') = listsRun (inTurn envs e.cmds) (fun _ => ⟨[], []⟩)))
      (fun _ => False)
      (¬ AlongAll c M H (fun env cmd f s => ¬ L env cmd f s ∧ ¬ cmd.Dies env.dropPanics s) (inTurn envs e.cmds) f (fun _ => ⟨[], []⟩))) :
    (runCmds c M (inTurn envs e.cmds) f).Meets
      (fun os f' => (os = e.shows ∧ (H (f' 0) e.leaves.1 ∧ M.drops (f' 0) = []) ∧ (H (f' 1) e.leaves.2 ∧ M.drops (f' 1) = [])) ∨
        (.panicked ∈ os ∧ ¬ AlongAll c M H (fun env cmd f s => ¬ L env cmd f s) (inTurn envs e.cmds) f (fun _ => ⟨[], []⟩)))
      (fun _ => False) (¬ AlongAll c M H (fun env cmd f s => ¬ L env cmd f s) (inTurn envs e.cmds) f (fun _ => ⟨[], []⟩)) := by
  refine h.mono ?_ (fun _ h => h) ?_
  · rintro os f' ⟨s', h1, h2, h3⟩
    rw [e.listsRun_eq envs] at h3
    by_cases hp : Out.panicked ∈ os
    · refine .inr ⟨hp, fun hq => ?_⟩
      rw [(Prod.mk.inj (h3 hq)).1] at hp
      exact e.no_panic hp
    · have := h2.unfailed (fun x hx k q h => by
        rcases Ex2.mem_cmds (mem_inTurn hx).2 with ⟨_, _, _, h'⟩ | ⟨_, h'⟩ | ⟨_, h'⟩ | h' | h' <;> rw [h'] at h <;> cases h) hp
      rw [e.listsRun_eq envs] at this
      obtain ⟨rfl, rfl⟩ := Prod.mk.inj this
      exact .inl ⟨rfl, h1 0, h1 1⟩
  · exact fun h hp => h (alongAll_imp (fun x hx _ _ h => ⟨h, Ex2.not_dies (mem_inTurn hx).2 _ _⟩) hp)

end Docs
end
end Verif
