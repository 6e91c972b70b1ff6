import Verif.Proofs.TraitsPure
import Verif.Props.Sized
import Verif.Props.Collect

/-!
# C33, C34, C45, C46: comparison, hashing, `clone`, searching, serialization

`Borrowed c T w xs` says that `w` is a vector, of any of the three kinds, with the elements `xs`. The methods of the elements are
arbitrary programs, and the first theorem on each method says that it runs these for the elements in order, like the program on lists
does. The others are about methods without effects.
-/

namespace Verif
open Sample

section
variable {σ ρ : Type} {T U W : UTy} {β γ δ : Type} [Inhabited β] [Inhabited γ] [Inhabited δ] {c : Cfg} {a : Walk T β} {b : Walk U γ}
  {xs : List (Val T β)} {ys : List (Val U γ)}

/-! ## C33: comparison -/

/-- C33, `==`. The vectors may be of different kinds and have different element types. -/
theorem C33_eq (ha : Borrowed c T a xs) (hb : Borrowed c U b ys) (e : Val T β → Val U γ → Exec σ Bool) : a.eq b e = listEq e xs ys :=
  Walk.eq_eq ha.left.1 ha.left.2 hb.left.1 hb.left.2 e

/-- C33: `==` holds exactly when the lengths agree and corresponding elements are equal. -/
theorem C33_eq_iff (ha : Borrowed c T a xs) (hb : Borrowed c U b ys) {e : Val T β → Val U γ → Exec σ Bool} {e' : Val T β → Val U γ → Bool}
    (he : ∀ x ∈ xs, ∀ y ∈ ys, ∀ s, e x y s = .ok (e' x y) s) (s : σ) :
    ∃ t, a.eq b e s = .ok t s ∧
      (t = true ↔ xs.length = ys.length ∧ ∀ i (h1 : i < xs.length) (h2 : i < ys.length), e' xs[i] ys[i] = true) := by
  rw [C33_eq ha hb]
  unfold listEq
  by_cases hl : xs.length = ys.length
  · rw [if_pos hl]
    obtain ⟨t, h1, h2⟩ := listEq_pure he s
    exact ⟨t, h1, h2.trans ⟨fun h => ⟨hl, h⟩, fun h => h.2⟩⟩
  · rw [if_neg hl]
    exact ⟨false, rfl, by simp [hl]⟩

/-- C33, `cmp`. -/
theorem C33_cmp (ha : Borrowed c T a xs) (hb : Borrowed c U b ys) (k : Val T β → Val U γ → Exec σ Ordering) : a.cmp b k = listCmp k xs ys :=
  Walk.cmp_eq ha.left.1 ha.left.2 hb.left.1 hb.left.2 k

/-- C33, `partial_cmp`. -/
theorem C33_partialCmp (ha : Borrowed c T a xs) (hb : Borrowed c U b ys) (k : Val T β → Val U γ → Exec σ (Option Ordering)) :
    a.partialCmp b k = listPartialCmp k xs ys :=
  Walk.partialCmp_eq ha.left.1 ha.left.2 hb.left.1 hb.left.2 k

/-- C33: `partial_cmp` is the comparison of the first elements that do not compare as equal, and that of the lengths if there are
none. -/
theorem C33_partialCmp_first (ha : Borrowed c T a xs) (hb : Borrowed c U b ys) {k : Val T β → Val U γ → Exec σ (Option Ordering)}
    {k' : Val T β → Val U γ → Option Ordering} (hk : ∀ x ∈ xs, ∀ y ∈ ys, ∀ s, k x y s = .ok (k' x y) s) (s : σ) :
    ∃ r, a.partialCmp b k s = .ok r s ∧
      ((∃ i, ∃ (h1 : i < xs.length) (h2 : i < ys.length),
        (∀ j (hj : j < i), k' (xs[j]'(by omega)) (ys[j]'(by omega)) = some .eq) ∧ k' xs[i] ys[i] ≠ some .eq ∧ r = k' xs[i] ys[i]) ∨
      ((∀ j (h1 : j < xs.length) (h2 : j < ys.length), k' xs[j] ys[j] = some .eq) ∧ r = some (compare xs.length ys.length))) := by
  rw [C33_partialCmp ha hb]
  exact listPartialCmp_pure hk s

/-- C33: `partial_cmp` agrees with `==`. -/
theorem C33_partialCmp_eq (ha : Borrowed c T a xs) (hb : Borrowed c U b ys) {e : Val T β → Val U γ → Exec σ Bool}
    {e' : Val T β → Val U γ → Bool} (he : ∀ x ∈ xs, ∀ y ∈ ys, ∀ s, e x y s = .ok (e' x y) s)
    {k : Val T β → Val U γ → Exec σ (Option Ordering)} {k' : Val T β → Val U γ → Option Ordering}
    (hk : ∀ x ∈ xs, ∀ y ∈ ys, ∀ s, k x y s = .ok (k' x y) s)
    (hek : ∀ x ∈ xs, ∀ y ∈ ys, (k' x y = some .eq ↔ e' x y = true)) (s : σ) :
    a.partialCmp b k s = .ok (some .eq) s ↔ a.eq b e s = .ok true s := by
  obtain ⟨t, h1, h2⟩ := C33_eq_iff ha hb he s
  obtain ⟨r, h3, h4⟩ := C33_partialCmp_first ha hb hk s
  rw [h1, h3]
  constructor
  · intro h
    injection h with h
    subst h
    have : t = true := by
      rw [h2]
      rcases h4 with ⟨i, _, _, _, h5, h6⟩ | ⟨h5, h6⟩
      · exact absurd h6.symm h5
      · injection h6 with h6
        exact ⟨Nat.compare_eq_eq.1 h6.symm, fun i h7 h8 => (hek _ (List.getElem_mem h7) _ (List.getElem_mem h8)).1 (h5 i h7 h8)⟩
    rw [this]
  · intro h
    injection h with h
    obtain ⟨h5, h6⟩ := h2.1 h
    rcases h4 with ⟨i, h7, h8, _, h9, _⟩ | ⟨_, h9⟩
    · exact absurd ((hek _ (List.getElem_mem h7) _ (List.getElem_mem h8)).2 (h6 i h7 h8)) h9
    · rw [h9, Nat.compare_eq_eq.2 h5]

end

section
variable {σ ρ : Type} {T U W : UTy} {β : Type} [Inhabited β] {c : Cfg} {a b d : Walk T β} {xs ys zs : List (Val T β)}

/-- C33: `cmp` is the lexicographic order on the elements. -/
theorem C33_cmp_lex (ha : Borrowed c T a xs) (hb : Borrowed c T b ys) {k : Val T β → Val T β → Exec σ Ordering}
    {k' : Val T β → Val T β → Ordering} (hk : ∀ x ∈ xs, ∀ y ∈ ys, ∀ s, k x y s = .ok (k' x y) s) (s : σ) :
    a.cmp b k s = .ok (List.compareLex k' xs ys) s := by
  rw [C33_cmp ha hb]
  exact listCmp_pure hk s

/-- C33: `cmp` is a linear order if that of the elements is: a vector compares as equal to itself, exchanging the vectors reverses
the result, and the order is transitive. -/
theorem C33_cmp_order (ha : Borrowed c T a xs) (hb : Borrowed c T b ys) (hd : Borrowed c T d zs) {k : Val T β → Val T β → Exec σ Ordering}
    {k' : Val T β → Val T β → Ordering} [Std.TransCmp k'] (hk : ∀ x y s, k x y s = .ok (k' x y) s) (s : σ) :
    a.cmp a k s = .ok .eq s ∧
    (∀ o, a.cmp b k s = .ok o s → b.cmp a k s = .ok o.swap s) ∧
    (∀ o o', a.cmp b k s = .ok o s → b.cmp d k s = .ok o' s → o.isLE = true → o'.isLE = true →
      ∃ o'', a.cmp d k s = .ok o'' s ∧ o''.isLE = true ∧ (o = .lt ∨ o' = .lt → o'' = .lt)) := by
  have hkk : ∀ {xs ys : List (Val T β)}, ∀ x ∈ xs, ∀ y ∈ ys, ∀ s, k x y s = .ok (k' x y) s := fun x _ y _ s => hk x y s
  rw [C33_cmp_lex ha ha hkk, C33_cmp_lex ha hb hkk, C33_cmp_lex hb ha hkk, C33_cmp_lex hb hd hkk, C33_cmp_lex ha hd hkk]
  refine ⟨by rw [Std.ReflCmp.compare_self (cmp := List.compareLex k')], ?_, ?_⟩
  · intro o h
    injection h with h
    rw [← h, ← Std.OrientedCmp.eq_swap]
  · intro o o' h h' h1 h2
    injection h with h
    injection h' with h'
    subst h; subst h'
    refine ⟨_, rfl, Std.TransCmp.isLE_trans h1 h2, ?_⟩
    rintro (h3 | h3)
    · exact Std.TransCmp.lt_of_lt_of_isLE h3 h2
    · exact Std.TransCmp.lt_of_isLE_of_lt h1 h3

/-- C33: `cmp` and `partial_cmp` agree if they do for elements. -/
theorem C33_cmp_partialCmp (ha : Borrowed c T a xs) (hb : Borrowed c T b ys) {k : Val T β → Val T β → Exec σ Ordering}
    {p : Val T β → Val T β → Exec σ (Option Ordering)} (hk : ∀ x y, p x y = k x y >>= fun o => pure (some o)) :
    a.partialCmp b p = a.cmp b k >>= fun o => pure (some o) := by
  rw [C33_cmp ha hb, C33_partialCmp ha hb]
  clear ha hb
  induction xs generalizing ys with
  | nil => cases ys <;> rfl
  | cons x xs ih =>
    cases ys with
    | nil => rfl
    | cons y ys =>
      unfold listCmp listPartialCmp
      rw [hk, Exec.bind_assoc', Exec.bind_assoc']
      refine Exec.bind_congr' _ fun o => ?_
      cases o with
      | lt => rfl
      | gt => rfl
      | eq => exact ih (ys := ys)

/-- C33: `cmp` returns `Equal` exactly when `==` holds, if that is so for elements. -/
theorem C33_cmp_eq (ha : Borrowed c T a xs) (hb : Borrowed c T b ys) {e : Val T β → Val T β → Exec σ Bool} {e' : Val T β → Val T β → Bool}
    (he : ∀ x ∈ xs, ∀ y ∈ ys, ∀ s, e x y s = .ok (e' x y) s) {k : Val T β → Val T β → Exec σ Ordering} {k' : Val T β → Val T β → Ordering}
    (hk : ∀ x ∈ xs, ∀ y ∈ ys, ∀ s, k x y s = .ok (k' x y) s) (hek : ∀ x ∈ xs, ∀ y ∈ ys, (k' x y = .eq ↔ e' x y = true)) (s : σ) :
    a.cmp b k s = .ok .eq s ↔ a.eq b e s = .ok true s := by
  have h1 := C33_cmp_partialCmp ha hb (k := k) (p := fun x y => k x y >>= fun o => pure (some o)) (fun _ _ => rfl)
  have h2 := C33_partialCmp_eq ha hb he (k := fun x y => k x y >>= fun o => pure (some o)) (k' := fun x y => some (k' x y))
    (fun x hx y hy s => by rw [Exec.bind_ok (hk x hx y hy s)]; rfl) (fun x hx y hy => by rw [← hek x hx y hy]; simp) s
  rw [← h2, h1, Exec.bind_ok (C33_cmp_lex ha hb hk s), C33_cmp_lex ha hb hk s]
  simp

/-- C33: `==` is an equivalence if that of the elements is. -/
theorem C33_eq_equivalence (ha : Borrowed c T a xs) (hb : Borrowed c T b ys) (hd : Borrowed c T d zs) {e : Val T β → Val T β → Exec σ Bool}
    {e' : Val T β → Val T β → Bool} (he : ∀ x y s, e x y s = .ok (e' x y) s) (hr : Equivalence fun x y => e' x y = true) (s : σ) :
    a.eq a e s = .ok true s ∧ (a.eq b e s = .ok true s → b.eq a e s = .ok true s) ∧
    (a.eq b e s = .ok true s → b.eq d e s = .ok true s → a.eq d e s = .ok true s) := by
  have hee : ∀ {xs ys : List (Val T β)}, ∀ x ∈ xs, ∀ y ∈ ys, ∀ s, e x y s = .ok (e' x y) s := fun x _ y _ s => he x y s
  have key : ∀ {a b : Walk T β} {xs ys : List (Val T β)}, Borrowed c T a xs → Borrowed c T b ys → (a.eq b e s = .ok true s ↔
      xs.length = ys.length ∧ ∀ i (h1 : i < xs.length) (h2 : i < ys.length), e' xs[i] ys[i] = true) := by
    intro a b xs ys ha hb
    obtain ⟨t, h1, h2⟩ := C33_eq_iff ha hb hee s
    rw [h1, ← h2]
    simp
  rw [key ha ha, key ha hb, key hb ha, key hb hd, key ha hd]
  refine ⟨⟨rfl, fun i h1 _ => hr.refl _⟩, fun h => ⟨h.1.symm, fun i h1 h2 => hr.symm (h.2 i h2 h1)⟩, fun h h' => ⟨h.1.trans h'.1, ?_⟩⟩
  intro i h1 h2
  exact hr.trans (h.2 i h1 (by have := h.1; omega)) (h'.2 i (by have := h.1; omega) h2)

end

/-! ## C33: hashing -/

section
variable {σ ρ : Type} {T U W : UTy} {β γ δ : Type} [Inhabited β] [Inhabited γ] [Inhabited δ] {c : Cfg} {a : Walk T β} {b : Walk U γ}
  {xs : List (Val T β)} {ys : List (Val U γ)}

/-- C33: `hash` feeds the elements to the hasher in order. -/
theorem C33_hash (ha : Borrowed c T a xs) (h : Val T β → Exec σ Unit) : a.hash h = listForEach h xs := by
  unfold Walk.hash
  rw [all_forEach ha.left.1 ha.left.2 h (pure ())]
  exact bind_unit _

/-- C33: equal vectors hash equally, if this is so for elements. -/
theorem C33_hash_eq (ha : Borrowed c T a xs) (hb : Borrowed c U b ys) {e : Val T β → Val U γ → Exec σ Bool} {e' : Val T β → Val U γ → Bool}
    (he : ∀ x ∈ xs, ∀ y ∈ ys, ∀ s, e x y s = .ok (e' x y) s) {τ : Type} {h : Val T β → Exec τ Unit} {h' : Val U γ → Exec τ Unit}
    (hh : ∀ x ∈ xs, ∀ y ∈ ys, e' x y = true → h x = h' y) {s : σ} (heq : a.eq b e s = .ok true s) : a.hash h = b.hash h' := by
  obtain ⟨t, h1, h2⟩ := C33_eq_iff ha hb he s
  rw [h1] at heq
  injection heq with heq
  obtain ⟨h3, h4⟩ := h2.1 heq
  rw [C33_hash ha, C33_hash hb]
  clear ha hb he heq h1 h2
  induction xs generalizing ys with
  | nil =>
    cases ys with
    | nil => rfl
    | cons y ys => simp at h3
  | cons x xs ih =>
    cases ys with
    | nil => simp at h3
    | cons y ys =>
      unfold listForEach
      rw [hh x (by simp) y (by simp) (h4 0 (by simp) (by simp))]
      refine Exec.bind_congr' _ fun _ => ih (fun x hx y hy => hh x (by simp [hx]) y (by simp [hy])) (by simpa using h3) ?_
      intro i h5 h6
      exact h4 (i + 1) (by simpa using h5) (by simpa using h6)

/-- A remark on C33: the length is not hashed, so hashing a pair of vectors only depends on the concatenation of their contents (for
`Vec` of the standard library it does not, since `Hash` should be free of prefix collisions). -/
theorem C33_hash_concatenation {a1 a2 b1 b2 : Walk T β} {xs1 xs2 ys1 ys2 : List (Val T β)} (h1 : Borrowed c T a1 xs1) (h2 : Borrowed c T a2 xs2)
    (h3 : Borrowed c T b1 ys1) (h4 : Borrowed c T b2 ys2) (h : Val T β → Exec σ Unit) (heq : xs1 ++ xs2 = ys1 ++ ys2) :
    (a1.hash h >>= fun _ => a2.hash h) = (b1.hash h >>= fun _ => b2.hash h) := by
  rw [C33_hash h1, C33_hash h2, C33_hash h3, C33_hash h4, ← listForEach_append, ← listForEach_append, heq]

/-! ## C46: serialization and formatting -/

/-- C46: `serialize` announces the length, then serializes the elements in order, and ends; at the first error it stops and returns
it. -/
theorem C46_serialize (ha : Borrowed c T a xs) {ε δ : Type} (seq : Option Nat → Exec σ (Except ε Unit))
    (elem : Val T β → Exec σ (Except ε Unit)) (fin : Exec σ (Except ε δ)) :
    a.serialize seq elem fin = (do
      match ← seq (some xs.length) with
      | .error e => pure (.error e)
      | .ok () => do
        match ← listTry elem xs with
        | .error e => pure (.error e)
        | .ok () => fin) := by
  unfold Walk.serialize
  rw [ha.left.2]
  refine Exec.bind_congr' _ fun o => ?_
  cases o with
  | error e => rfl
  | ok u =>
    dsimp only
    refine Eq.trans ?_ (visit_try elem fin 0 xs)
    funext s
    have hag := Walk.each_agrees (w := a) (fun _ x => elem x >>= fun o => match o with
      | .error e => pure (some e)
      | .ok () => pure none : Nat → Val T β → Exec σ (Option ε)) xs (a.len + 1) 0 a.start s ha.left.1 (by have := ha.left.2; omega)
    exact hag.bind_fst fun r => match r with
      | some e => pure (.error e)
      | none => fin

/-- C46: `fmt` formats the elements in order as a list. -/
theorem C46_debug (ha : Borrowed c T a xs) {δ : Type} (list : Exec σ Unit) (entry : Val T β → Exec σ Unit) (fin : Exec σ δ) :
    a.debug list entry fin = (do
      list
      listForEach entry xs
      fin) := by
  unfold Walk.debug
  exact Exec.bind_congr' _ fun _ => all_forEach ha.left.1 ha.left.2 entry fin

/-! ## C45: searching -/

section
variable {k : Nat} {it : a.It}

/-- The iterator of a borrowed vector is one with all elements left. -/
theorem C45_start (ha : Borrowed c T a xs) : a.Left a.start (xs.drop 0) := ha.left.1

/-- C45, `for_each`. -/
theorem C45_for_each (ha : Borrowed c T a xs) (hl : a.Left it (xs.drop k)) (f : Val T β → Exec σ Unit) :
    a.forEach f it = listForEach f (xs.drop k) := by
  funext s
  have hag := Walk.each_agrees (w := a) (fun _ x => f x >>= fun _ => pure none : Nat → Val T β → Exec σ (Option Unit)) (xs.drop k) (a.len + 1) 0 it s hl
    (by have := ha.left.2; simp; omega)
  unfold Walk.forEach
  rw [show (a.each (ρ := Unit) (fun _ x => f x >>= fun _ => pure none) (a.len + 1) 0 it >>= fun _ => pure () : Exec σ Unit) s = _ from
    hag.bind_fst fun _ => pure (), visit_forEach]

/-- C45, `find_map`: the first result; the iterator is left after that element. -/
theorem C45_find_map (ha : Borrowed c T a xs) (hl : a.Left it (xs.drop k)) (f : Val T β → Exec σ (Option ρ)) (s : σ) :
    a.Agrees (a.findMap f it s) ((listFind f (xs.drop k) >>= fun r => pure (r.1.map (·.2), r.2)) s) := by
  have h := each_find ha hl f (fun _ r => r) s
  unfold Walk.findMap
  have : (fun _ x => f x >>= fun o => pure (o.map fun r => r) : Nat → Val T β → Exec σ (Option ρ)) = fun _ x => f x := by
    funext _ x s
    cases hr : f x s with
    | ub => rw [Exec.bind_ub hr]
    | abort => rw [Exec.bind_abort hr]
    | panic s1 => rw [Exec.bind_panic hr]
    | ok o s1 => rw [Exec.bind_ok hr]; cases o <;> rfl
  rw [this] at h
  exact h

/-- C45, `find`: the first element accepted. -/
theorem C45_find (ha : Borrowed c T a xs) (hl : a.Left it (xs.drop k)) (f : Val T β → Exec σ Bool) (s : σ) :
    a.Agrees (a.find f it s) ((listFind (accepts f) (xs.drop k) >>= fun r => pure (r.1.map (·.2), r.2)) s) :=
  C45_find_map ha hl (accepts f) s

/-- C45, `position`: the index of the first element accepted, counted from where the iterator is. -/
theorem C45_position (ha : Borrowed c T a xs) (hl : a.Left it (xs.drop k)) (f : Val T β → Exec σ Bool) (s : σ) :
    a.Agrees (a.position f it s) ((listFind (accepts f) (xs.drop k) >>= fun r => pure (r.1.map (·.1), r.2)) s) := by
  have h := each_find ha hl (accepts f) (fun k _ => k) s
  unfold Walk.position
  have : (fun k x => accepts f x >>= fun o => pure (o.map fun _ => k) : Nat → Val T β → Exec σ (Option Nat)) =
      fun k x => f x >>= fun t => if t = true then pure (some k) else pure none := by
    funext k x
    unfold accepts
    rw [Exec.bind_assoc']
    exact Exec.bind_congr' _ fun t => by cases t <;> rfl
  rw [this] at h
  exact h

/-- C45, `any`: is there an element that is accepted? -/
theorem C45_any (ha : Borrowed c T a xs) (hl : a.Left it (xs.drop k)) (f : Val T β → Exec σ Bool) (s : σ) :
    a.Agrees (a.anyOf f it s) ((listFind (accepts f) (xs.drop k) >>= fun r => pure (r.1.isSome, r.2)) s) := by
  have h := each_find ha hl (accepts f) (fun _ _ => ()) s
  have : (fun k x => accepts f x >>= fun o => pure (o.map fun _ => ()) : Nat → Val T β → Exec σ (Option Unit)) =
      fun k x => f x >>= fun t => if t = true then pure (some ()) else pure none := by
    funext k x
    unfold accepts
    rw [Exec.bind_assoc']
    exact Exec.bind_congr' _ fun t => by cases t <;> rfl
  rw [this] at h
  have h2 := h.bind (f := fun p => (pure (p.1.isSome, p.2) : Exec σ (Bool × a.It))) (g := fun p => pure (p.1.isSome, p.2))
    (fun o it' rest s hl => ⟨it', rfl, hl⟩)
  rw [Exec.bind_assoc'] at h2
  have h3 : (listFind (accepts f) (xs.drop k) >>= fun r => (pure (r.1.map fun _ => (), r.2) : Exec σ (Option Unit × List (Val T β))) >>=
      fun p => pure (p.1.isSome, p.2)) = listFind (accepts f) (xs.drop k) >>= fun r => pure (r.1.isSome, r.2) :=
    Exec.bind_congr' _ fun r => by
      rw [Exec.pure_bind']
      cases r.1 <;> rfl
  rw [h3] at h2
  exact h2

/-- C45, `all`: is there no element that is rejected? -/
theorem C45_all (ha : Borrowed c T a xs) (hl : a.Left it (xs.drop k)) (f : Val T β → Exec σ Bool) (s : σ) :
    a.Agrees (a.allOf f it s) ((listFind (rejects f) (xs.drop k) >>= fun r => pure (r.1.isNone, r.2)) s) := by
  have h := each_find ha hl (rejects f) (fun _ _ => ()) s
  have : (fun k x => rejects f x >>= fun o => pure (o.map fun _ => ()) : Nat → Val T β → Exec σ (Option Unit)) =
      fun k x => f x >>= fun t => if t = true then pure none else pure (some ()) := by
    funext k x
    unfold rejects
    rw [Exec.bind_assoc']
    exact Exec.bind_congr' _ fun t => by cases t <;> rfl
  rw [this] at h
  have h2 := h.bind (f := fun p => (pure (p.1.isNone, p.2) : Exec σ (Bool × a.It))) (g := fun p => pure (p.1.isNone, p.2))
    (fun o it' rest s hl => ⟨it', rfl, hl⟩)
  rw [Exec.bind_assoc'] at h2
  have h3 : (listFind (rejects f) (xs.drop k) >>= fun r => (pure (r.1.map fun _ => (), r.2) : Exec σ (Option Unit × List (Val T β))) >>=
      fun p => pure (p.1.isNone, p.2)) = listFind (rejects f) (xs.drop k) >>= fun r => pure (r.1.isNone, r.2) :=
    Exec.bind_congr' _ fun r => by
      rw [Exec.pure_bind']
      cases r.1 <;> rfl
  rw [h3] at h2
  exact h2

/-- C45 for predicates without effects: the results are those of the functions on lists, and the iterator goes on after the element that
decided. -/
theorem C45_search_pure (ha : Borrowed c T a xs) (hl : a.Left it (xs.drop k)) {f : Val T β → Exec σ Bool} {f' : Val T β → Bool}
    (hf : ∀ x ∈ xs, ∀ s, f x s = .ok (f' x) s) (s : σ) :
    (∃ it', a.allOf f it s = .ok ((xs.drop k).all f', it') s ∧ a.Left it' ((xs.drop k).dropWhile f').tail) ∧
    (∃ it', a.anyOf f it s = .ok ((xs.drop k).any f', it') s ∧ a.Left it' ((xs.drop k).dropWhile (!f' ·)).tail) ∧
    (∃ it', a.find f it s = .ok ((xs.drop k).find? f', it') s ∧ a.Left it' ((xs.drop k).dropWhile (!f' ·)).tail) ∧
    (∃ it', a.position f it s = .ok ((xs.drop k).findIdx? f', it') s ∧ a.Left it' ((xs.drop k).dropWhile (!f' ·)).tail) := by
  have hacc : ∀ x ∈ xs.drop k, ∀ s, accepts f x s = .ok (if f' x = true then some x else none) s := by
    intro x hx s
    unfold accepts
    rw [Exec.bind_ok (hf x (List.mem_of_mem_drop hx) s)]
    cases f' x <;> rfl
  have hrej : ∀ x ∈ xs.drop k, ∀ s, rejects f x s = .ok (if f' x = true then none else some x) s := by
    intro x hx s
    unfold rejects
    rw [Exec.bind_ok (hf x (List.mem_of_mem_drop hx) s)]
    cases f' x <;> rfl
  have h1 := C45_all ha hl f s
  have h2 := C45_any ha hl f s
  have h3 := C45_find ha hl f s
  have h4 := C45_position ha hl f s
  rw [Exec.bind_ok (listFind_pure hrej s)] at h1
  rw [Exec.bind_ok (listFind_pure hacc s)] at h2 h3 h4
  generalize xs.drop k = l at h1 h2 h3 h4
  have e1 : (fun x => (if f' x = true then some x else none : Option (Val T β)).isSome) = f' := by
    funext x; cases h : f' x <;> simp
  have e2 : (fun x => (if f' x = true then some x else none : Option (Val T β)).isNone) = (!f' ·) := by
    funext x; cases h : f' x <;> simp
  have e3 : (fun x => (if f' x = true then none else some x : Option (Val T β)).isSome) = (!f' ·) := by
    funext x; cases h : f' x <;> simp
  have e4 : (fun x => (if f' x = true then none else some x : Option (Val T β)).isNone) = f' := by
    funext x; cases h : f' x <;> simp
  have e5 : ∀ l : List (Val T β), l.findSome? (fun x => if f' x = true then some x else none) = l.find? f' := by
    intro l
    induction l with
    | nil => rfl
    | cons x l ih => cases h : f' x <;> simp [h, ih]
  rw [e3, e4] at h1
  rw [e1, e2, e5] at h2 h3 h4
  have e7 : ∀ l : List (Val T β), l.findSome? (fun x => if f' x = true then none else some x) = l.find? (!f' ·) := by
    intro l
    induction l with
    | nil => rfl
    | cons x l ih => cases h : f' x <;> simp [h, ih]
  rw [e7] at h1
  have e8 : ∀ p : Val T β → Bool, ∀ o, o = ((l.findIdx? p).bind fun i => (l.find? p).map fun r => (i, r)) →
      o.map (·.2) = l.find? p ∧ o.map (·.1) = l.findIdx? p ∧ o.isSome = l.any p := by
    rintro p o rfl
    have h7 : (l.findIdx? p).isSome = l.any p := List.findIdx?_isSome
    have h8 : (l.find? p).isSome = l.any p := by
      rw [Bool.eq_iff_iff, List.find?_isSome, List.any_eq_true]
    cases h5 : l.findIdx? p with
    | none =>
      rw [h5] at h7
      rw [← h7] at h8
      cases h6 : l.find? p with
      | none => exact ⟨rfl, rfl, h7⟩
      | some y => rw [h6] at h8; cases h8
    | some i =>
      rw [h5] at h7
      rw [← h7] at h8
      cases h6 : l.find? p with
      | none => rw [h6] at h8; cases h8
      | some y => exact ⟨rfl, rfl, h7⟩
  obtain ⟨-, -, g1⟩ := e8 (!f' ·) _ rfl
  obtain ⟨g2, g3, g4⟩ := e8 f' _ rfl
  refine ⟨?_, ?_, ?_, ?_⟩
  · obtain ⟨it', h5, h6⟩ := h1
    refine ⟨it', ?_, h6⟩
    rw [h5, ← Option.not_isSome, g1, List.not_any_eq_all_not]
    simp
  · obtain ⟨it', h5, h6⟩ := h2
    rw [g4] at h5
    exact ⟨it', h5, h6⟩
  · obtain ⟨it', h5, h6⟩ := h3
    rw [g2] at h5
    exact ⟨it', h5, h6⟩
  · obtain ⟨it', h5, h6⟩ := h4
    rw [g3] at h5
    exact ⟨it', h5, h6⟩

end
end

/-! ## C34: `clone`

Only vectors of sized elements can be cloned. The original is borrowed, so that it is not part of the state of the program. -/

section
variable {σ : Type} {β : Type} [Inhabited β] {c : Cfg} {sz al : Nat} {v : SVec sz al β} {xs : List (Val (sizedTy sz al) β)}

/-- C34, if the elements have a size: the clone consists of the clones of the elements, made one after the other, and has room for as
much as the original. `clone` panics if the allocator refuses or if cloning an element panics; in this case the clones made until then are
dropped, once each. The process can only end if the allocator refuses, or if cloning an element ends it or panics when the destructor of a
clone panics too. Partial: elements without size are excluded, see `C34_counterexample`. -/
theorem C34_clone_partial (h : v.Holds c xs) (hz : 0 < sz) (env envD : Env (Val (sizedTy sz al) β)) (envs : Nat → Env (Val (sizedTy sz al) β))
    (cl : Val (sizedTy sz al) β → Exec σ (Val (sizedTy sz al) β)) {s : σ} (hs : CloneSound c cl xs s) :
    (SVec.clone c env envD envs cl v s).Meets
      (fun _ st => ∃ ys, ClonedVals cl xs s ys st.1 ∧ st.2.Holds c ys ∧ st.2.drops = [] ∧ v.capacity c ≤ st.2.capacity c)
      (fun st => (st.1 = s ∧ st.2.drops = [] ∧ ∃ e, env.infoGrow (v.capacity c) = .error e) ∨
        ∃ j x s1, xs[j]? = some x ∧ ClonedVals cl (xs.take j) s st.2.drops s1 ∧ cl x s1 = .panic st.1)
      ((∃ e, env.infoGrow (v.capacity c) = .error e) ∨
        ∃ j x ys s1, xs[j]? = some x ∧ ClonedVals cl (xs.take j) s ys s1 ∧
          (cl x s1 = .abort ∨ (∃ s2, cl x s1 = .panic s2) ∧ ∃ y ∈ ys, envD.dropPanics y = true)) :=
  SVec.clone_meets h hz env envD envs cl hs

/-- C34, if cloning an element returns an equal one and the allocator does not refuse: the clone has the contents of the original.
Partial: elements without size are excluded. -/
theorem C34_clone_equal_partial (h : v.Holds c xs) (hz : 0 < sz) (env envD : Env (Val (sizedTy sz al) β))
    (envs : Nat → Env (Val (sizedTy sz al) β)) (henv : ∃ n, env.infoGrow (v.capacity c) = .ok n) {cl : Val (sizedTy sz al) β → Exec σ (Val (sizedTy sz al) β)}
    (hcl : ∀ x ∈ xs, ∀ s, ∃ s', cl x s = .ok x s') (s : σ) :
    ∃ s' ret, SVec.clone c env envD envs cl v s = .ok () (s', ret) ∧ ret.Holds c xs ∧ ret.observe = some xs ∧ ret.drops = [] ∧
      v.capacity c ≤ ret.capacity c := by
  have hsound : ∀ (l : List (Val (sizedTy sz al) β)) s, (∀ x ∈ l, x ∈ xs) → CloneSound c cl l s := by
    intro l
    induction l with
    | nil => intro s _; trivial
    | cons x l ih =>
      intro s hx
      obtain ⟨s1, h1⟩ := hcl x (hx x (by simp)) s
      refine ⟨by rw [h1]; simp, fun y s' hy => ?_⟩
      rw [h1] at hy
      injection hy with hy _
      subst hy
      exact ⟨h.wf x (hx x (by simp)), ih s' fun z hz => hx z (by simp [hz])⟩
  have hsame : ∀ {l ys : List (Val (sizedTy sz al) β)} {s s'}, ClonedVals cl l s ys s' → (∀ x ∈ l, x ∈ xs) → ys = l := by
    intro l ys s s' hc
    induction hc with
    | nil => intro _; rfl
    | cons h1 _ ih =>
      rename_i x y _ _ s _ _ _
      intro hx
      obtain ⟨s1, h2⟩ := hcl x (hx x (by simp)) s
      rw [h2] at h1
      injection h1 with h1 _
      subst h1
      rw [ih fun z hz => hx z (by simp [hz])]
  have key := C34_clone_partial h hz env envD envs cl (s := s) (hsound xs s fun x hx => hx)
  obtain ⟨n, hn⟩ := henv
  cases hr : SVec.clone c env envD envs cl v s with
  | ub => rw [hr] at key; exact key.elim
  | abort =>
    rw [hr] at key
    rcases key with ⟨e, h1⟩ | ⟨j, x, ys, s1, h1, _, h3⟩
    · rw [hn] at h1; cases h1
    · obtain ⟨s2, h4⟩ := hcl x (List.mem_of_getElem? h1) s1
      rw [h4] at h3
      rcases h3 with h3 | ⟨⟨_, h3⟩, _⟩ <;> cases h3
  | panic st =>
    rw [hr] at key
    rcases key with ⟨_, _, e, h1⟩ | ⟨j, x, s1, h1, _, h3⟩
    · rw [hn] at h1; cases h1
    · obtain ⟨s2, h4⟩ := hcl x (List.mem_of_getElem? h1) s1
      rw [h4] at h3
      cases h3
  | ok u st =>
    rw [hr] at key
    obtain ⟨ys, h1, h2, h3, h4⟩ := key
    obtain rfl := hsame h1 fun x hx => hx
    exact ⟨st.1, st.2, rfl, h2, h2.observe_eq, h3, h4⟩

/-- C34 is false for elements without size: cloning such a vector, even an empty one, always panics (division by the size). -/
theorem C34_counterexample_all {v : SVec 0 al β} {xs : List (Val (sizedTy 0 al) β)} (h : v.Holds c xs) (env envD : Env (Val (sizedTy 0 al) β))
    (envs : Nat → Env (Val (sizedTy 0 al) β)) (cl : Val (sizedTy 0 al) β → Exec σ (Val (sizedTy 0 al) β)) (s : σ) :
    ∃ ret, SVec.clone c env envD envs cl v s = .panic (s, ret) := by
  unfold SVec.clone
  rw [SVec.byteCapacity_eq h]
  dsimp only
  have h1 := SVec.exact_zst (al := al) (SVec.new_holds (c := c) (β := β)) env (v.capacity c) (v.capacity c * 0) al
    (by rw [SVec.capacity_zst]; simp)
  have h2 : Api.withCapacityBytesAlign (sizedP c 0 al) env (v.capacity c) (v.capacity c * 0) al = .panic (SVec.new : SVec 0 al β) :=
    Exec.bind_panic h1
  rw [h2]
  exact ⟨_, rfl⟩

end

/-! ## Examples and tests -/

/-- The result and the state, if the call returned. -/
def seenIn {σ α : Type} : Res σ α → Option (α × σ)
  | .ok a s => some (a, s)
  | _ => none

/-- The bytes of an element count as its value. -/
def byBytes {T U : UTy} : Val T Nat → Val U Nat → Exec Nat Ordering := fun x y s => .ok (List.compareLex compare x.bytes y.bytes) s

def sameBytes {T U : UTy} : Val T Nat → Val U Nat → Exec Nat Bool := fun x y s => .ok (x.bytes == y.bytes) (s + 1)

def partially {T U : UTy} : Val T Nat → Val U Nat → Exec Nat (Option Ordering) := fun x y s =>
  .ok (if x.bytes.length = y.bytes.length then some (compare x.bytes.sum y.bytes.sum) else none) s

/-- A hasher that remembers what it is fed. -/
def feed {T : UTy} : Val T Nat → Exec (List Nat) Unit := fun x s => .ok () (s ++ x.bytes)

/-- The hypotheses of C33 can be met by vectors of each kind, -/
example : Borrowed c64 Dyn (vecU.walk c64) listU ∧ Borrowed c64 Bytes.ty (vecA.walk c64) listA ∧ Borrowed c64 Pair vecP.walk listP :=
  ⟨.unaligned (vecU_holds _ (.inl rfl)), .aligned (bytes_lawful _ (.inl rfl)).fits (vecA_holds _ (.inl rfl)), .sized (vecP_holds _ (.inl rfl))⟩

/-- by methods without effects, -/
example : ∀ x y : Val Dyn Nat, ∀ s, byBytes x y s = .ok (List.compareLex compare x.bytes y.bytes) s := fun _ _ _ => rfl

/-- and by an order. -/
example : Std.TransCmp fun x y : Val Dyn Nat => List.compareLex compare x.bytes y.bytes :=
  { eq_swap := fun {x y} => Std.OrientedCmp.eq_swap (cmp := List.compareLex compare) (a := x.bytes) (b := y.bytes)
    isLE_trans := fun {x y z} => Std.TransCmp.isLE_trans (cmp := List.compareLex compare) (a := x.bytes) (b := y.bytes) (c := z.bytes) }

/-- The methods of the model run: the vector of three elements equals itself after three comparisons, differs from one of another length
without any, is greater than one with smaller elements, and cannot be compared with one whose first element is incomparable. -/
example : seenIn ((vecA.walk c64).eq (vecA.walk c64) sameBytes 0) = some (true, 3) ∧
    seenIn ((vecA.walk c64).eq (vecU.walk c64) sameBytes 0) = some (false, 0) ∧
    seenIn ((vecA.walk c64).eq vecP.walk sameBytes 0) = some (false, 1) ∧
    seenIn ((vecA.walk c64).cmp (vecU.walk c64) byBytes 0) = some (.lt, 0) ∧
    seenIn ((vecU.walk c64).cmp (vecA.walk c64) byBytes 0) = some (.gt, 0) ∧
    seenIn ((vecA.walk c64).cmp (vecA.walk c64) byBytes 0) = some (.eq, 0) ∧
    seenIn ((vecA.walk c64).partialCmp vecP.walk partially 0) = some (none, 0) ∧
    seenIn (vecP.walk.partialCmp vecP.walk partially 0) = some (some .eq, 0) ∧
    seenIn ((vecA.walk c64).hash feed []) = some ((), [1, 2, 3, 4, 5, 6]) ∧
    seenIn (vecP.walk.hash feed []) = some ((), [1, 2, 3, 4, 5, 6]) := by decide +kernel

/-- The hypotheses of C45 can be met, e.g. by the iterator that `next` leaves. -/
example : ∃ r it, (vecA.walk c64).next vecA.iter = some (some r, it) ∧ (vecA.walk c64).Left it (listA.drop 1) := by
  obtain ⟨r, it, h1, h2, h3⟩ := (AVec.walk_left (bytes_lawful _ (.inl rfl)).fits (vecA_holds c64 (.inl rfl)) : (vecA.walk c64).Left vecA.iter listA)
  exact ⟨r, it, h1, h3⟩

/-- The element has `n` bytes. -/
def hasBytes {T : UTy} (n : Nat) : Val T Nat → Exec Nat Bool := fun x s => .ok (x.bytes.length == n) (s + 1)

example : (seenIn ((vecA.walk c64).position (hasBytes 2) vecA.iter 0)).map (fun p => (p.1.1, p.2)) = some (some 1, 2) ∧
    (seenIn ((vecA.walk c64).find (hasBytes 2) vecA.iter 0)).map (fun p => (p.1.1, p.2)) = some (some (bytes [2, 3]), 2) ∧
    (seenIn ((vecA.walk c64).allOf (hasBytes 2) vecA.iter 0)).map (fun p => (p.1.1, p.2)) = some (false, 1) ∧
    (seenIn ((vecA.walk c64).anyOf (hasBytes 2) vecA.iter 0)).map (fun p => (p.1.1, p.2)) = some (true, 2) ∧
    (seenIn ((vecA.walk c64).anyOf (hasBytes 9) vecA.iter 0)).map (fun p => (p.1.1, p.2)) = some (false, 3) := by decide +kernel

/-- A serializer that writes down the calls, and refuses elements with `n` bytes. -/
def writeSeq (n : Option Nat) : Exec (List Nat) (Except Nat Unit) := fun s => .ok (.ok ()) (s ++ [n.getD 99])
def writeElem {T : UTy} (n : Nat) (x : Val T Nat) : Exec (List Nat) (Except Nat Unit) := fun s =>
  .ok (if x.bytes.length = n then .error n else .ok ()) (s ++ x.bytes)
def writeEnd : Exec (List Nat) (Except Nat Unit) := fun s => .ok (.ok ()) (s ++ [100])

example : (seenIn ((vecA.walk c64).serialize writeSeq (writeElem 9) writeEnd [])).map (·.2) = some [3, 1, 2, 3, 4, 5, 6, 100] ∧
    (seenIn ((vecA.walk c64).serialize writeSeq (writeElem 2) writeEnd [])).map (·.2) = some [3, 1, 2, 3] ∧
    (seenIn ((vecU.walk c64).debug (fun s => .ok () (s ++ [0])) feed writeEnd [])).map (·.2) =
      some ([0, 1, 2, 3, 11, 12, 13, 14, 15, 16, 17, 18, 100]) := by decide +kernel

/-- The hypotheses of C34 can be met. -/
example : vecP.Holds c64 listP ∧ 0 < 2 ∧ (∃ n, (env : Env (Val Pair Nat)).infoGrow (vecP.capacity c64) = .ok n) ∧
    CloneSound c64 (fun x (s : Nat) => .ok x (s + 1)) listP 0 :=
  ⟨vecP_holds _ (.inl rfl), by decide, ⟨_, rfl⟩, by
    have hwf : ∀ {l : List (Val Pair Nat)} {s : Nat}, (∀ x ∈ l, x.WF c64) → CloneSound c64 (fun x (s : Nat) => .ok x (s + 1)) l s := by
      intro l
      induction l with
      | nil => intro _ _; trivial
      | cons x l ih =>
        intro s h
        refine ⟨by simp, fun y s' hy => ?_⟩
        injection hy with hy _
        subst hy
        exact ⟨h x (by simp), ih fun z hz => h z (by simp [hz])⟩
    exact hwf (vecP_holds c64 (.inl rfl)).wf⟩

/-- Cloning the third element panics. -/
def cloneTwo (x : Val Pair Nat) : Exec Nat (Val Pair Nat) := fun s => if s = 2 then .panic s else .ok x (s + 1)

example : returned (fun v => (v.observe.map (·.map Val.bytes), v.capacity c64)) (SVec.clone c64 env env (fun _ => env) (fun x (s : Nat) => .ok x (s + 1)) vecP 0) =
      some (some [[1, 2], [3, 4], [5, 6]], 5) ∧
    unwound (fun v => v.drops.map Val.bytes) (SVec.clone c64 env env (fun _ => env) cloneTwo vecP 0) = some [[1, 2], [3, 4]] := by decide +kernel

/-- C34 is false for elements without size. -/
theorem C34_counterexample : vecZ.Holds c64 [⟨(), []⟩, ⟨(), []⟩] ∧
    unwound (fun v => v.drops.map Val.bytes) (SVec.clone c64 env env (fun _ => env) (fun x (s : Nat) => .ok x (s + 1)) vecZ 0) = some [] :=
  ⟨vecZ_holds, by decide +kernel⟩

end Verif
