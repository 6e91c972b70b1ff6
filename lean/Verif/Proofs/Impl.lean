import Verif.Spec.Guards
import Verif.Spec.Emplace
import Verif.Proofs.Run
import Verif.Proofs.Arith

/-!
# Reasoning about the public interface, once for every implementation

`Impl` collects what the functions of `src/lib.rs` need to know about an implementation. It is instantiated for the
dynamically aligned and the statically aligned vector; the theorems in `Verif/Props` are about these instances.
-/

namespace Verif
variable {V : Type} {T : UTy} {β : Type}

/-- What the emplacable returned by a removal offers: `v` is the vector before, `v1` while the value is being
moved, `x` the element, `al` the alignment that is announced for it, `mid` the contents while the value is being moved and `rest` the
contents afterwards. -/
structure Gives (H : V → List (Val T β) → Prop) (drops : V → List (Val T β)) (env : Env (Val T β))
    (st : Started V T β) (v v1 : V) (x : Val T β) (al : Nat) (mid rest : List (Val T β)) : Prop where
  layout : st.layout = ⟨x.size, al⟩
  md : st.md = x.md
  held : H v1 mid ∧ drops v1 = drops v
  write : st.write v1 = .done x.bytes v1
  finish : ∃ v2, st.finish v1 = .ok () v2 ∧ H v2 rest ∧ drops v2 = drops v
  dropVal : ∃ v3, st.dropVal v1 = (if env.dropPanics x then .panic v3 else .ok () v3) ∧
    H v3 mid ∧ drops v3 = drops v ++ [x] ∧
    ∃ v4, st.finish v3 = .ok () v4 ∧ H v4 rest ∧ drops v4 = drops v ++ [x]

/-- Running an emplacer with what `Gives` describes. -/
theorem Gives.run {H : V → List (Val T β) → Prop} {drops : V → List (Val T β)} {env : Env (Val T β)}
    {st : Started V T β} {v v1 : V} {x : Val T β} {al : Nat} {mid rest : List (Val T β)}
    (hg : Gives H drops env st v v1 x al mid rest)
    {e : Emplacable V T β} (he : e v = .ok st v1) {τ : Type} (m : Emplacer τ T β) (t : τ) :
    SameOutcome (Verif.run e m (v, t)) (Verif.run (givenAs ⟨x.size, al⟩ env x) m (drops v, t)) (fun v' ds => H v' rest ∧ drops v' = ds)
      (fun v' ds => H v' mid ∧ drops v' = ds) := by
  obtain ⟨v2, hf, hH2, hd2⟩ := hg.finish
  obtain ⟨hH1, hd1⟩ := hg.held
  obtain ⟨v3, hdv, hH3, hd3, v4, hf4, hH4, hd4⟩ := hg.dropVal
  have hgiven : ∀ s, givenAs ⟨x.size, al⟩ env x s = .ok _ s := fun s => rfl
  unfold Verif.run
  rw [Exec.bind_ok (liftL_ok he), Exec.bind_ok (liftL_ok (hgiven _)), hg.layout, hg.md]
  dsimp only
  cases hm : m ⟨x.size, al⟩ x.md t with
  | ub => rw [Exec.bind_ub (liftR_ub hm), Exec.bind_ub (liftR_ub hm)]; trivial
  | abort => rw [Exec.bind_abort (liftR_abort hm), Exec.bind_abort (liftR_abort hm)]; trivial
  | panic t1 => rw [Exec.bind_panic (liftR_panic hm), Exec.bind_panic (liftR_panic hm)]; exact ⟨rfl, hH1, hd1⟩
  | ok p t1 =>
    rw [Exec.bind_ok (liftR_ok hm), Exec.bind_ok (liftR_ok hm)]
    cases p with
    | place store commit rollback =>
      dsimp only
      have e1 : placeInto st.write store rollback (v1, t1) = liftR (store x.bytes) (v1, t1) := by
        unfold placeInto; dsimp only; rw [hg.write]
      have e2 : placeInto (fun s : List (Val T β) => WriteRes.done x.bytes s) store rollback (drops v, t1) =
          liftR (store x.bytes) (drops v, t1) := rfl
      cases hs : store x.bytes t1 with
      | ub => rw [liftR_ub hs] at e1 e2; rw [Exec.bind_ub e1, Exec.bind_ub e2]; trivial
      | abort => rw [liftR_abort hs] at e1 e2; rw [Exec.bind_abort e1, Exec.bind_abort e2]; trivial
      | panic t2 => rw [liftR_panic hs] at e1 e2; rw [Exec.bind_panic e1, Exec.bind_panic e2]; exact ⟨rfl, hH1, hd1⟩
      | ok u t2 =>
        rw [liftR_ok hs] at e1 e2; rw [Exec.bind_ok e1, Exec.bind_ok e2]
        cases hc : commit t2 with
        | ub => rw [Exec.bind_ub (liftR_ub hc), Exec.bind_ub (liftR_ub hc)]; trivial
        | abort => rw [Exec.bind_abort (liftR_abort hc), Exec.bind_abort (liftR_abort hc)]; trivial
        | panic t1 => rw [Exec.bind_panic (liftR_panic hc), Exec.bind_panic (liftR_panic hc)]; exact ⟨rfl, hH1, hd1⟩
        | ok u t3 =>
          rw [Exec.bind_ok (liftR_ok hc), Exec.bind_ok (liftR_ok hc), liftL_ok hf]
          exact ⟨rfl, hH2, hd2⟩
    | dropIt commit =>
      dsimp only
      by_cases hp : env.dropPanics x = true
      · rw [if_pos hp] at hdv
        have e2 : dropGiven env x (drops v) =
          .panic (drops v ++ [x]) := if_pos hp
        rw [Exec.bind_panic (liftL_panic hdv), Exec.bind_panic (liftL_panic e2)]
        exact ⟨rfl, hH3, hd3⟩
      · rw [if_neg hp] at hdv
        have e2 : dropGiven env x (drops v) =
          .ok () (drops v ++ [x]) := if_neg hp
        rw [Exec.bind_ok (liftL_ok hdv), Exec.bind_ok (liftL_ok e2)]
        cases hc : commit t1 with
        | ub => rw [Exec.bind_ub (liftR_ub hc), Exec.bind_ub (liftR_ub hc)]; trivial
        | abort => rw [Exec.bind_abort (liftR_abort hc), Exec.bind_abort (liftR_abort hc)]; trivial
        | panic t1 => rw [Exec.bind_panic (liftR_panic hc), Exec.bind_panic (liftR_panic hc)]; exact ⟨rfl, hH3, hd3⟩
        | ok u t3 =>
          rw [Exec.bind_ok (liftR_ok hc), Exec.bind_ok (liftR_ok hc), liftL_ok hf4]
          exact ⟨rfl, hH4, hd4⟩
    | skip commit =>
      dsimp only
      cases hc : commit t1 with
      | ub => rw [Exec.bind_ub (liftR_ub hc), Exec.bind_ub (liftR_ub hc)]; trivial
      | abort => rw [Exec.bind_abort (liftR_abort hc), Exec.bind_abort (liftR_abort hc)]; trivial
      | panic t1 => rw [Exec.bind_panic (liftR_panic hc), Exec.bind_panic (liftR_panic hc)]; exact ⟨rfl, hH1, hd1⟩
      | ok u t3 =>
        rw [Exec.bind_ok (liftR_ok hc), Exec.bind_ok (liftR_ok hc), liftL_ok hf]
        exact ⟨rfl, hH2, hd2⟩

/-- The contract of an implementation. -/
structure Impl (c : Cfg) (P : Provider V T β) where
  H : V → List (Val T β) → Prop
  /-- what becomes of a value when it is stored -/
  st : Val T β → Val T β
  drops : V → List (Val T β)
  /-- byte length of the contents -/
  width : V → List (Val T β) → Nat
  bcap : V → Nat
  /-- base address and allocation -/
  block : V → Nat × Option Block
  /-- requirements on the allocator -/
  EnvOk : Env (Val T β) → Prop
  /-- the alignment of the vector suffices for elements of this alignment -/
  fits : V → Nat → Prop
  /-- guard: inserting at this index an element of this alignment is covered -/
  insGuard : V → List (Val T β) → Nat → Nat → Prop
  /-- guard: `insert` without reservation at this index is covered -/
  insPlain : V → List (Val T β) → Nat → Prop
  /-- guard: removal at this index is covered -/
  remGuard : V → List (Val T β) → Nat → Prop
  /-- the memory block needed for this many more bytes with this alignment -/
  request : V → List (Val T β) → Nat → Nat → Layout
  /-- adding this many bytes with this alignment exceeds the address space -/
  tooBig : V → List (Val T β) → Nat → Nat → Prop
  maxLen : Nat
  /-- guard: if this many bytes fit into the storage, they fit with the padding behind them -/
  roomy : V → List (Val T β) → Nat → Prop
  /-- the alignment that a removal announces for an element -/
  anno : Val T β → Nat
  wf : ∀ {v xs}, H v xs → ∀ x ∈ xs, x.WF c
  len_eq : ∀ {v xs}, H v xs → P.len v = xs.length
  recs : ∀ {v xs}, H v xs → xs.length ≤ P.capacity v
  byteLen_eq : ∀ {v xs}, H v xs → P.byteLen v = some (width v xs)
  byteCap_eq : ∀ v, P.byteCapacity v = some (bcap v)
  width_le : ∀ {v xs}, H v xs → width v xs ≤ bcap v
  alignNew : ∀ {al}, IsAlign c al → P.alignNew al = some al
  tryReserve : ∀ {v xs}, H v xs → ∀ env n,
    (∃ v', P.tryReserve env n v = .ok (.ok ()) v' ∧ H v' xs ∧ drops v' = drops v ∧ width v' xs = width v xs ∧
      bcap v' = bcap v ∧ P.align v' = P.align v ∧ block v' = block v ∧ xs.length + n ≤ P.capacity v' ∧
      P.capacity v ≤ P.capacity v' ∧
      (xs.length + n ≤ P.capacity v → v' = v) ∧
      (∀ n al, request v' xs n al = request v xs n al) ∧ (∀ n al, tooBig v' xs n al → tooBig v xs n al) ∧ (∀ al, fits v' al ↔ fits v al) ∧
      (∀ n, roomy v xs n → roomy v' xs n)) ∨
    (∃ e, P.tryReserve env n v = .ok (.error e) v ∧
      ((e = .capacityOverflow ∧ maxLen < xs.length + n) ∨ env.infoGrow (xs.length + n) = .error e) ∧
      P.capacity v < xs.length + n)
  addBytes : ∀ {v xs}, H v xs → ∀ {env}, EnvOk env → ∀ {al}, IsAlign c al → ∀ add,
    (∃ v', P.tryReserveAdditionalBytesAlign env add al v = .ok (.ok ()) v' ∧ H v' xs ∧ drops v' = drops v ∧
      bcap v + width v' xs + add ≤ bcap v' + width v xs ∧ bcap v ≤ bcap v' ∧ P.capacity v' = P.capacity v ∧
      (add = 0 → fits v al → v' = v) ∧
      (env.Exact → bcap v' = bcap v ∨ bcap v' = (request v xs add al).size) ∧
      P.align v ≤ P.align v' ∧ (P.align v' = max (P.align v) al ∨ P.align v' = P.align v) ∧
      (fits v' al ∨ (bcap v' = 0 ∧ (fits v al → fits v' al))) ∧ (v' = v ∨ ∀ n, n + width v xs ≤ bcap v + add → roomy v' xs n)) ∨
    (∃ e, P.tryReserveAdditionalBytesAlign env add al v = .ok (.error e) v ∧
      ((e = .capacityOverflow ∧ tooBig v xs add al) ∨ (e = .allocError ∧ env.alloc (request v xs add al) = none)) ∧
      ¬ (add = 0 ∧ fits v al))
  /-- the storage after a reservation that was not needed does not depend on the environment -/
  noAdd : ∀ {v xs}, H v xs → ∀ env {al}, IsAlign c al → fits v al →
    P.tryReserveAdditionalBytesAlign env 0 al v = .ok (.ok ()) v
  push : ∀ {v xs}, H v xs → ∀ {x : Val T β}, x.WF c → fits v x.align → xs.length < P.capacity v →
    width v xs + x.size ≤ bcap v → roomy v xs x.size → ∃ v', P.pushUnchecked x v = .ok () v' ∧ H v' (xs ++ [st x]) ∧ drops v' = drops v ∧
      P.capacity v' = P.capacity v ∧ bcap v' = bcap v ∧ P.align v' = P.align v ∧ block v' = block v
  insert : ∀ {v xs}, H v xs → ∀ {x : Val T β}, x.WF c → fits v x.align → xs.length < P.capacity v →
    width v xs + x.size ≤ bcap v → roomy v xs x.size → ∀ {k}, k ≤ xs.length → insPlain v xs k →
    ∃ v', P.insertUnchecked k x v = .ok () v' ∧ H v' (xs.take k ++ st x :: xs.drop k) ∧ drops v' = drops v ∧
      P.capacity v' = P.capacity v ∧ bcap v' = bcap v ∧ P.align v' = P.align v ∧ block v' = block v
  pushWith : ∀ {v xs}, H v xs → ∀ {env}, EnvOk env → ∀ {md : T.Meta}, MetaOk c md →
    (bcap v = 0 → T.sizeOf md = 0 → fits v (T.alignOf md)) →
    (P.pushWith env ⟨T.sizeOf md, T.alignOf md⟩ md v).Meets
      (fun p v1 => p.Places v1 (T.sizeOf md) (fun v' => H v' xs ∧ drops v' = drops v)
        (fun bs v' => H v' (xs ++ [st ⟨md, bs⟩]) ∧ drops v' = drops v))
      (fun v' => H v' xs ∧ drops v' = drops v ∧
        (env.Refuses (xs.length + 1) (request v xs (T.sizeOf md) (T.alignOf md)) ∨ maxLen < xs.length + 1 ∨
          tooBig v xs (T.sizeOf md) (T.alignOf md)))
      (env.Refuses (xs.length + 1) (request v xs (T.sizeOf md) (T.alignOf md)))
  insertWith : ∀ {v xs}, H v xs → ∀ {env}, EnvOk env → ∀ {md : T.Meta}, MetaOk c md →
    (bcap v = 0 → T.sizeOf md = 0 → fits v (T.alignOf md)) → ∀ {k}, k ≤ xs.length → insGuard v xs k (T.alignOf md) →
    (P.insertWithUnchecked env k ⟨T.sizeOf md, T.alignOf md⟩ md v).Meets
      (fun p v1 => p.Places v1 (T.sizeOf md) (fun v' => H v' xs ∧ drops v' = drops v)
        (fun bs v' => H v' (xs.take k ++ st ⟨md, bs⟩ :: xs.drop k) ∧ drops v' = drops v))
      (fun v' => H v' xs ∧ drops v' = drops v ∧
        (env.Refuses (xs.length + 1) (request v xs (T.sizeOf md) (T.alignOf md)) ∨ maxLen < xs.length + 1 ∨
          tooBig v xs (T.sizeOf md) (T.alignOf md)))
      (env.Refuses (xs.length + 1) (request v xs (T.sizeOf md) (T.alignOf md)))
  get : ∀ {v xs}, H v xs → ∀ k (hk : k < xs.length), ∃ r, P.getUnchecked v k = some r ∧ r.md = xs[k].md
  pop : ∀ {v xs} {x : Val T β}, H v (xs ++ [x]) → ∀ env, ∃ st v1, P.popIntoUnchecked env v = .ok st v1 ∧
    Gives H drops env st v v1 x (anno x) xs xs
  remove : ∀ {v xs}, H v xs → ∀ env k (hk : k < xs.length), remGuard v xs k →
    ∃ st v1, P.removeIntoUnchecked env k v = .ok st v1 ∧ Gives H drops env st v v1 xs[k] (anno xs[k]) xs (xs.eraseIdx k)

namespace Impl
variable {c : Cfg} {P : Provider V T β} (I : Impl c P) {v : V} {xs : List (Val T β)}

/-- The excluded case of adding an element. -/
def guard (v : V) (n al : Nat) : Prop := I.bcap v = 0 → n = 0 → I.fits v al

/-- Spare bytes. -/
def unused (v : V) (xs : List (Val T β)) : Nat := I.bcap v - I.width v xs

/-- The environment refuses a reservation of `n` elements and `b` bytes. -/
def Refused (env : Env (Val T β)) (v : V) (xs : List (Val T β)) (n b al : Nat) : Prop :=
  env.Refuses (xs.length + n) (I.request v xs (b - I.unused v xs) al)

/-- Why a reservation fails. -/
def Fails (env : Env (Val T β)) (v : V) (xs : List (Val T β)) (n b al : Nat) : Prop :=
  I.Refused env v xs n b al ∨ I.maxLen < xs.length + n ∨ I.tooBig v xs (b - I.unused v xs) al

/-- The effect of a successful reservation of `n` elements and `b` bytes. -/
structure Enlarged (env : Env (Val T β)) (v v' : V) (xs : List (Val T β)) (n b al : Nat) : Prop where
  holds : I.H v' xs
  drops : I.drops v' = I.drops v
  recs : xs.length + n ≤ P.capacity v'
  recsMono : P.capacity v ≤ P.capacity v'
  room : I.width v' xs + b ≤ I.bcap v'
  bytesMono : I.bcap v ≤ I.bcap v'
  alignMono : P.align v ≤ P.align v'
  alignCases : P.align v' = max (P.align v) al ∨ P.align v' = P.align v
  fits : ∀ n, n ≤ b → I.guard v n al → I.fits v' al
  roomy : ∀ n, n ≤ b → (I.fits v al → I.roomy v xs n) → I.fits v' al → I.roomy v' xs n
  /-- if the storage has to grow and the allocator can satisfy the generous request, the growth is generous -/
  grown : 0 < b - I.unused v xs → ¬ I.tooBig v xs (max (b - I.unused v xs) (I.bcap v)) al →
    env.alloc (I.request v xs (max (b - I.unused v xs) (I.bcap v)) al) ≠ none →
    I.bcap v + I.width v' xs + max (b - I.unused v xs) (I.bcap v) ≤ I.bcap v' + I.width v xs
  /-- exact allocators: the capacity is what was asked for, and that is not more than what is needed or generous -/
  tight : env.Exact → I.bcap v' = I.bcap v ∨ (0 < b - I.unused v xs ∧
    I.bcap v' = (I.request v xs (max (b - I.unused v xs) (I.bcap v)) al).size) ∨
    I.bcap v' = (I.request v xs (b - I.unused v xs) al).size
  /-- the storage is left alone if there is room already -/
  calm : I.width v xs + b ≤ I.bcap v → I.fits v al → I.bcap v' = I.bcap v ∧ I.block v' = I.block v ∧ P.align v' = P.align v
  /-- nothing happens if there is room already -/
  idle : xs.length + n ≤ P.capacity v → I.width v xs + b ≤ I.bcap v → I.fits v al → v' = v

/-- The effect of a failed reservation: at most the record capacity has grown. -/
structure Kept (v v' : V) (xs : List (Val T β)) : Prop where
  holds : I.H v' xs
  drops : I.drops v' = I.drops v
  recsMono : P.capacity v ≤ P.capacity v'
  width : I.width v' xs = I.width v xs
  bytes : I.bcap v' = I.bcap v
  align : P.align v' = P.align v
  block : I.block v' = I.block v

theorem Kept.refl (h : I.H v xs) : I.Kept v v xs := ⟨h, rfl, Nat.le_refl _, rfl, rfl, rfl, rfl⟩

theorem byteCapAssert_ok (h : I.H v xs) {b : Nat} (hb : I.width v xs + b ≤ I.bcap v) :
    Api.byteCapAssert c P b v = .ok () v := by
  unfold Api.byteCapAssert
  rw [Exec.get_bind, Exec.orUb_bind (I.byteCap_eq v), Exec.orUb_bind (I.byteLen_eq h), Exec.debugAssert_pos hb]

theorem byteCapAssert_cases (h : I.H v xs) (b : Nat) :
    Api.byteCapAssert c P b v = .ok () v ∨ (Api.byteCapAssert c P b v = .panic v ∧ c.debug = true) := by
  unfold Api.byteCapAssert
  rw [Exec.get_bind, Exec.orUb_bind (I.byteCap_eq v), Exec.orUb_bind (I.byteLen_eq h)]
  rcases Exec.debugAssert_cases c.debug (I.bcap v ≥ I.width v xs + b) v with h1 | h1
  · exact .inl h1
  · exact .inr ⟨h1.1, h1.2.1⟩

/-- `try_reserve_capacity_bytes_align` for a power-of-two alignment. -/
theorem tryReserveCapacityBytesAlign_meets (h : I.H v xs) {env : Env (Val T β)} (he : I.EnvOk env) (n b : Nat) {al : Nat}
    (hal : IsAlign c al) :
    (Api.tryReserveCapacityBytesAlign c P env n b al v).Meets
      (fun r v' => (r = .ok () ∧ I.Enlarged env v v' xs n b al) ∨
        ∃ e, r = .error e ∧ I.Kept v v' xs ∧ I.Fails env v xs n b al ∧ (e = .allocError → I.Refused env v xs n b al))
      (fun v' => c.debug = true ∧ I.Kept v v' xs ∧ I.Fails env v xs n b al)
      False := by
  unfold Api.tryReserveCapacityBytesAlign Api.tryReserve
  rcases I.tryReserve h env n with ⟨v1, h1, hH, hd, hw, hbc, hali, hblk, hrec, hmono, hid, hrq, htb, hfit, hroo⟩ | ⟨e, h1, hwhy, _⟩
  rotate_left
  · rw [Exec.bind_ok h1]
    refine .inr ⟨e, rfl, .refl I h, ?_, ?_⟩
    · rcases hwhy with ⟨_, h2⟩ | hm
      · exact .inr (.inl h2)
      · exact .inl (.inl ⟨_, hm⟩)
    · rintro rfl
      rcases hwhy with ⟨h2, _⟩ | hm
      · cases h2
      · exact .inl ⟨_, hm⟩
  rw [Exec.bind_ok h1]
  dsimp only
  have hk1 : I.Kept v v1 xs := ⟨hH, hd, hmono, hw, hbc, hali, hblk⟩
  rw [Exec.get_bind, Exec.debugAssert_bind (by rw [I.len_eq hH]; exact hrec)]
  unfold Api.toAlign
  rw [I.alignNew hal]
  dsimp only
  rw [Exec.pure_bind_apply, Exec.orUb_bind (I.byteCap_eq v1)]
  have hun : Api.unusedByteCap P v1 = some (I.unused v xs) := by
    unfold Api.unusedByteCap uncheckedSub
    have := I.width_le hH
    simp only [I.byteCap_eq, I.byteLen_eq hH, Option.bind_eq_bind, Option.bind_some, if_pos this]
    unfold unused; rw [hbc, hw]
  rw [Exec.orUb_bind hun]
  have hwl := I.width_le h
  have hunu : I.unused v xs = I.bcap v - I.width v xs := rfl
  generalize hneed : b - I.unused v xs = needed
  have hF : ∀ {add : Nat}, I.tooBig v1 xs needed al → I.Fails env v xs n b al := fun h2 =>
    .inr (.inr (by rw [hneed]; exact htb _ _ h2))
  -- a successful attempt with at least the needed bytes
  have hsucc : ∀ {v' : V} {add : Nat}, needed ≤ add → (needed = 0 → add = 0) →
      (0 < needed → ¬ I.tooBig v xs (max needed (I.bcap v)) al →
        env.alloc (I.request v xs (max needed (I.bcap v)) al) ≠ none → max needed (I.bcap v) ≤ add) → I.H v' xs → I.drops v' = I.drops v1 →
      (env.Exact → I.bcap v' = I.bcap v ∨ (0 < needed ∧ I.bcap v' = (I.request v xs (max needed (I.bcap v)) al).size) ∨
        I.bcap v' = (I.request v xs needed al).size) →
      I.bcap v1 + I.width v' xs + add ≤ I.bcap v' + I.width v1 xs → I.bcap v1 ≤ I.bcap v' →
      P.capacity v' = P.capacity v1 → (add = 0 → I.fits v1 al → v' = v1) → P.align v1 ≤ P.align v' →
      (P.align v' = max (P.align v1) al ∨ P.align v' = P.align v1) →
      (I.fits v' al ∨ (I.bcap v' = 0 ∧ (I.fits v1 al → I.fits v' al))) → (v' = v1 ∨ ∀ n, n + I.width v1 xs ≤ I.bcap v1 + add → I.roomy v' xs n) → I.Enlarged env v v' xs n b al := by
    intro v' add h0 h00 hbig h1 h2 htight h3 h4 h5 h6 h7 h7' h8 hrm
    refine ⟨h1, by rw [h2, hd], by omega, by omega, by omega, by omega, by omega, by rw [← hali]; exact h7', ?_,
      fun m hmb hm hf' => hrm.elim (fun e => by subst e; exact hroo m (hm ((hfit al).mp hf'))) (fun h => h m (by omega)), ?_, ?_, ?_, ?_⟩
    · intro m hm hg
      rcases h8 with h8 | ⟨h8, h9⟩
      · exact h8
      · exact h9 ((hfit al).mpr (hg (by omega) (by omega)))
    · rw [hneed]
      intro h9 h10 h11
      have := hbig h9 h10 h11
      omega
    · rw [hneed]; exact htight
    · intro h9 h10
      rw [h6 (h00 (by omega)) ((hfit al).mpr h10)]
      exact ⟨hbc, hblk, hali⟩
    · intro h9 h10 h11
      have e1 := hid h9
      rw [h6 (h00 (by omega)) ((hfit al).mpr h11), e1]
  have hneeded : (0 < needed → ¬ I.tooBig v xs (max needed (I.bcap v)) al →
      env.alloc (I.request v xs (max needed (I.bcap v)) al) ≠ none → max needed (I.bcap v) ≤ needed) →
      (Api.reserveNeeded c P env b needed al v1).Meets
      (fun r v' => (r = .ok () ∧ I.Enlarged env v v' xs n b al) ∨
        ∃ e, r = .error e ∧ I.Kept v v' xs ∧ I.Fails env v xs n b al ∧ (e = .allocError → I.Refused env v xs n b al))
      (fun v' => c.debug = true ∧ I.Kept v v' xs ∧ I.Fails env v xs n b al) False := by
    intro hbig
    unfold Api.reserveNeeded
    rcases I.addBytes hH he hal needed with ⟨v2, h2, hH2, hd2, hsp2, hm2, hc2, hid2, ht2, ha2, hac2, hf2, hr2⟩ | ⟨e, h2, hwhy, _⟩
    · have hE := hsucc (Nat.le_refl _) (fun h => h) hbig hH2 hd2
        (fun hx => (ht2 hx).imp (fun h => by rw [h, hbc]) (fun h => .inr (by rw [h, hrq]))) hsp2 hm2 hc2 hid2 ha2 hac2 hf2 hr2
      rw [Exec.bind_ok h2, Exec.bind_ok (I.byteCapAssert_ok hH2 hE.room)]
      exact .inl ⟨rfl, hE⟩
    · have hF : I.Fails env v xs n b al := by
        rcases hwhy with ⟨_, h3⟩ | ⟨_, hl⟩
        · exact hF (add := 0) h3
        · exact .inl (.inr (by rw [hneed, ← hrq]; exact hl))
      rw [Exec.bind_ok h2]
      rcases I.byteCapAssert_cases hH b with h3 | ⟨h3, hdb⟩
      · rw [Exec.bind_ok h3]
        refine .inr ⟨e, rfl, hk1, hF, ?_⟩
        rintro rfl
        rcases hwhy with ⟨h4, _⟩ | ⟨_, hl⟩
        · cases h4
        · exact .inr (by rw [hneed, ← hrq]; exact hl)
      · rw [Exec.bind_panic h3]
        exact ⟨hdb, hk1, hF⟩
  by_cases hopt : (if needed > 0 then max needed (I.bcap v1) else 0) > needed
  · rw [if_pos hopt]
    have hpos : needed > 0 := by
      by_cases hp : needed > 0
      · exact hp
      · rw [if_neg hp] at hopt; omega
    rw [if_pos hpos] at hopt ⊢
    rcases I.addBytes hH he hal (max needed (I.bcap v1)) with ⟨v2, h2, hH2, hd2, hsp2, hm2, hc2, hid2, ht2, ha2, hac2, hf2, hr2⟩ | ⟨e, h2, hwhy, _⟩
    · rw [Exec.bind_ok h2]
      exact .inl ⟨rfl, hsucc (Nat.le_max_left _ _) (by omega) (fun _ _ _ => by omega) hH2 hd2
        (fun hx => (ht2 hx).imp (fun h => by rw [h, hbc]) (fun h => .inl ⟨hpos, by rw [h, hrq, hbc]⟩)) hsp2 hm2 hc2 hid2 ha2 hac2 hf2 hr2⟩
    · rw [Exec.bind_ok h2]
      refine hneeded (fun _ h3 h4 => ?_)
      rw [hbc] at hwhy
      rcases hwhy with ⟨_, h5⟩ | ⟨_, h5⟩
      · exact absurd (htb _ _ h5) h3
      · rw [hrq] at h5; exact absurd h5 h4
  · rw [if_neg hopt]
    refine hneeded (fun h3 _ _ => ?_)
    rw [if_pos h3] at hopt
    omega

/-- Unwrapping the result of a reservation. -/
theorem reserveCapacityBytesAlign_meets (h : I.H v xs) {env : Env (Val T β)} (he : I.EnvOk env) (n b : Nat) {al : Nat}
    (hal : IsAlign c al) :
    (Api.reserveCapacityBytesAlign c P env n b al v).Meets
      (fun _ v' => I.Enlarged env v v' xs n b al)
      (fun v' => I.Kept v v' xs ∧ I.Fails env v xs n b al)
      (I.Refused env v xs n b al) := by
  unfold Api.reserveCapacityBytesAlign
  refine ((I.tryReserveCapacityBytesAlign_meets h he n b hal).mono (fun _ _ h => h) (fun _ h => h.2) False.elim).bind ?_
  rintro r v1 (⟨rfl, hE⟩ | ⟨e, rfl, hK, hF, hA⟩)
  · exact hE
  · cases e with
    | capacityOverflow => exact ⟨hK, hF⟩
    | allocError => exact hA rfl

/-- When there is room, a reservation does nothing at all, whatever the environment. -/
theorem reserveCapacityBytesAlign_idle (h : I.H v xs) (env : Env (Val T β)) (n b : Nat) {al : Nat}
    (hal : IsAlign c al) (h1 : xs.length + n ≤ P.capacity v) (h2 : I.width v xs + b ≤ I.bcap v) (h3 : I.fits v al) :
    Api.reserveCapacityBytesAlign c P env n b al v = .ok () v := by
  unfold Api.reserveCapacityBytesAlign Api.tryReserveCapacityBytesAlign Api.tryReserve
  rcases I.tryReserve h env n with ⟨v1, h4, _, _, _, _, _, _, _, _, hid, _, _, _, _⟩ | ⟨e, _, _, h5⟩
  rotate_left
  · omega
  rw [hid h1] at h4
  have hun : Api.unusedByteCap P v = some (I.unused v xs) := by
    unfold Api.unusedByteCap uncheckedSub
    have := I.width_le h
    simp only [I.byteCap_eq, I.byteLen_eq h, Option.bind_eq_bind, Option.bind_some, if_pos this]
    rfl
  have hneed : b - I.unused v xs = 0 := by unfold unused; omega
  rw [Exec.bind_assoc_apply, Exec.bind_ok h4]
  dsimp only
  rw [Exec.bind_assoc_apply, Exec.get_bind, Exec.bind_assoc_apply, Exec.debugAssert_bind (by rw [I.len_eq h]; exact h1)]
  unfold Api.toAlign
  rw [I.alignNew hal]
  dsimp only
  rw [Exec.bind_assoc_apply, Exec.pure_bind_apply, Exec.bind_assoc_apply, Exec.orUb_bind (I.byteCap_eq v),
    Exec.bind_assoc_apply, Exec.orUb_bind hun, hneed, if_neg (by simp)]
  unfold Api.reserveNeeded
  rw [Exec.bind_assoc_apply, Exec.bind_ok (I.noAdd h env hal h3), Exec.bind_assoc_apply,
    Exec.bind_ok (I.byteCapAssert_ok h h2)]
  rfl

/-! ## push -/

theorem push_meets (h : I.H v xs) {env : Env (Val T β)} (he : I.EnvOk env) {x : Val T β} (hx : x.WF c)
    (hg : I.guard v x.size x.align) (hr : I.fits v x.align → I.roomy v xs x.size) :
    (Api.push c P env x v).Meets
      (fun _ v' => I.H v' (xs ++ [I.st x]) ∧ I.drops v' = I.drops v ∧
        ∃ v1, I.Enlarged env v v1 xs 1 x.size x.align ∧ P.capacity v' = P.capacity v1 ∧ I.bcap v' = I.bcap v1 ∧
          P.align v' = P.align v1 ∧ I.block v' = I.block v1)
      (fun v' => I.Kept v v' xs ∧ I.Fails env v xs 1 x.size x.align)
      (I.Refused env v xs 1 x.size x.align) := by
  unfold Api.push
  refine (I.reserveCapacityBytesAlign_meets h he 1 x.size hx.align_pow).bind ?_
  intro _ v1 hE
  obtain ⟨v2, h1, h2, h3, h4⟩ := I.push hE.holds hx (hE.fits x.size (Nat.le_refl _) hg) hE.recs hE.room (hE.roomy _ (Nat.le_refl _) hr (hE.fits x.size (Nat.le_refl _) hg))
  exact .of_ok h1 ⟨h2, by rw [h3, hE.drops], v1, hE, h4⟩

theorem push_idle (h : I.H v xs) (env : Env (Val T β)) {x : Val T β} (hx : x.WF c)
    (h1 : xs.length + 1 ≤ P.capacity v) (h2 : I.width v xs + x.size ≤ I.bcap v) (h3 : I.fits v x.align)
    (h0 : I.roomy v xs x.size) :
    ∃ v', Api.push c P env x v = .ok () v' ∧ P.pushUnchecked x v = .ok () v' ∧ I.H v' (xs ++ [I.st x]) ∧ I.drops v' = I.drops v ∧
      P.capacity v' = P.capacity v ∧ I.bcap v' = I.bcap v ∧ P.align v' = P.align v ∧ I.block v' = I.block v := by
  unfold Api.push
  rw [Exec.bind_ok (I.reserveCapacityBytesAlign_idle h env 1 x.size hx.align_pow h1 h2 h3)]
  obtain ⟨v', h4, h5⟩ := I.push h hx h3 h1 h2 h0
  exact ⟨v', h4, h4, h5⟩

/-! ## insert -/

theorem insert_meets (h : I.H v xs) {env : Env (Val T β)} (he : I.EnvOk env) {x : Val T β} (hx : x.WF c)
    (hg : I.guard v x.size x.align) (hr : I.fits v x.align → I.roomy v xs x.size) {k : Nat} (hk : k ≤ xs.length)
    (hp : ∀ v', I.Enlarged env v v' xs 1 x.size x.align → I.insPlain v' xs k) :
    (Api.insert c P env k x v).Meets
      (fun _ v' => I.H v' (xs.take k ++ I.st x :: xs.drop k) ∧ I.drops v' = I.drops v)
      (fun v' => I.Kept v v' xs ∧ I.Fails env v xs 1 x.size x.align)
      (I.Refused env v xs 1 x.size x.align) := by
  unfold Api.insert
  rw [Exec.get_bind, Exec.assert_bind (by rw [I.len_eq h]; exact hk)]
  refine (I.reserveCapacityBytesAlign_meets h he 1 x.size hx.align_pow).bind ?_
  intro _ v1 hE
  obtain ⟨v2, h1, h2, h3, _⟩ := I.insert hE.holds hx (hE.fits x.size (Nat.le_refl _) hg) hE.recs hE.room (hE.roomy _ (Nat.le_refl _) hr (hE.fits x.size (Nat.le_refl _) hg)) hk (hp v1 hE)
  exact .of_ok h1 ⟨h2, by rw [h3, hE.drops]⟩

theorem insert_idle (h : I.H v xs) (env : Env (Val T β)) {x : Val T β} (hx : x.WF c)
    (h1 : xs.length + 1 ≤ P.capacity v) (h2 : I.width v xs + x.size ≤ I.bcap v) (h3 : I.fits v x.align)
    (h0 : I.roomy v xs x.size) {k : Nat} (hk : k ≤ xs.length) (hp : I.insPlain v xs k) :
    ∃ v', Api.insert c P env k x v = .ok () v' ∧ P.insertUnchecked k x v = .ok () v' ∧ I.H v' (xs.take k ++ I.st x :: xs.drop k) ∧ I.drops v' = I.drops v ∧
      P.capacity v' = P.capacity v ∧ I.bcap v' = I.bcap v ∧ P.align v' = P.align v ∧ I.block v' = I.block v := by
  unfold Api.insert
  rw [Exec.get_bind, Exec.assert_bind (by rw [I.len_eq h]; exact hk),
    Exec.bind_ok (I.reserveCapacityBytesAlign_idle h env 1 x.size hx.align_pow h1 h2 h3)]
  obtain ⟨v', h4, h5⟩ := I.insert h hx h3 h1 h2 h0 hk hp
  exact ⟨v', h4, h4, h5⟩

theorem insert_out (h : I.H v xs) (env : Env (Val T β)) {x : Val T β} {k : Nat} (hk : xs.length < k) :
    Api.insert c P env k x v = .panic v := by
  unfold Api.insert
  rw [Exec.get_bind]
  exact Exec.assert_bind_neg (p := k ≤ P.len v) (by rw [I.len_eq h]; omega) _ _

/-! ## push_with and insert_with -/

/-- Why an emplacer's own reservation fails: it always asks for the full size, whatever is spare. -/
def EmplaceFails (env : Env (Val T β)) (v : V) (xs : List (Val T β)) (md : T.Meta) : Prop :=
  env.Refuses (xs.length + 1) (I.request v xs (T.sizeOf md) (T.alignOf md)) ∨ I.maxLen < xs.length + 1 ∨
    I.tooBig v xs (T.sizeOf md) (T.alignOf md)

theorem pushWith_meets {σ : Type} (h : I.H v xs) {env : Env (Val T β)} (he : I.EnvOk env) {e : Emplacable σ T β} {s : σ}
    (hs : e.Sound c s) (hg : ∀ md s1, e.Announces s md s1 → I.guard v (T.sizeOf md) (T.alignOf md)) :
    (Api.pushWithRun P env e (s, v)).Meets
      (fun _ st => ∃ x : Val T β, x.WF c ∧ e.Runs s x (.ok () st.1) ∧ I.H st.2 (xs ++ [I.st x]) ∧ I.drops st.2 = I.drops v)
      (fun st => (I.H st.2 xs ∧ I.drops st.2 = I.drops v ∧
          (e.Unwinds s st.1 ∨ ∃ md, e.Announces s md st.1 ∧ I.EmplaceFails env v xs md)) ∨
        ∃ x : Val T β, x.WF c ∧ e.Runs s x (.panic st.1) ∧ I.H st.2 (xs ++ [I.st x]) ∧ I.drops st.2 = I.drops v)
      ((∃ md s1, e.Announces s md s1 ∧ env.Refuses (xs.length + 1) (I.request v xs (T.sizeOf md) (T.alignOf md))) ∨
        e.Aborts s) := by
  refine (run_meets (P := fun md v' => I.H v' xs ∧ I.drops v' = I.drops v ∧ I.EmplaceFails env v xs md)
    (A := fun md => env.Refuses (xs.length + 1) (I.request v xs (T.sizeOf md) (T.alignOf md)))
    (After := fun x v' => I.H v' (xs ++ [I.st x]) ∧ I.drops v' = I.drops v)
    (Before := fun v' => I.H v' xs ∧ I.drops v' = I.drops v) hs ⟨h, rfl⟩
    (fun st s1 hst => I.pushWith h he (hs.metaOk st s1 hst) (hg st.md s1 ⟨st, hst, rfl⟩))).mono (fun _ _ h => h) ?_
    (fun h => h)
  rintro st (⟨md, h1, h2, h3, h4⟩ | ⟨h1, h2, h3⟩ | h1)
  · exact .inl ⟨h2, h3, .inr ⟨md, h1, h4⟩⟩
  · exact .inl ⟨h2, h3, .inl h1⟩
  · exact .inr h1

theorem insertWith_meets {σ : Type} (h : I.H v xs) {env : Env (Val T β)} (he : I.EnvOk env) {e : Emplacable σ T β} {s : σ}
    (hs : e.Sound c s) (hg : ∀ md s1, e.Announces s md s1 → I.guard v (T.sizeOf md) (T.alignOf md)) {k : Nat}
    (hk : k ≤ xs.length) (hi : ∀ md s1, e.Announces s md s1 → I.insGuard v xs k (T.alignOf md)) :
    (Api.insertWithRun P env k e (s, v)).Meets
      (fun _ st => ∃ x : Val T β, x.WF c ∧ e.Runs s x (.ok () st.1) ∧ I.H st.2 (xs.take k ++ I.st x :: xs.drop k) ∧
        I.drops st.2 = I.drops v)
      (fun st => (I.H st.2 xs ∧ I.drops st.2 = I.drops v ∧
          (e.Unwinds s st.1 ∨ ∃ md, e.Announces s md st.1 ∧ I.EmplaceFails env v xs md)) ∨
        ∃ x : Val T β, x.WF c ∧ e.Runs s x (.panic st.1) ∧ I.H st.2 (xs.take k ++ I.st x :: xs.drop k) ∧
          I.drops st.2 = I.drops v)
      ((∃ md s1, e.Announces s md s1 ∧ env.Refuses (xs.length + 1) (I.request v xs (T.sizeOf md) (T.alignOf md))) ∨
        e.Aborts s) := by
  unfold Api.insertWithRun
  rw [Exec.get_bind, Exec.guardedAssert_bind (by rw [I.len_eq h]; exact hk)]
  refine (run_meets (P := fun md v' => I.H v' xs ∧ I.drops v' = I.drops v ∧ I.EmplaceFails env v xs md)
    (A := fun md => env.Refuses (xs.length + 1) (I.request v xs (T.sizeOf md) (T.alignOf md)))
    (After := fun x v' => I.H v' (xs.take k ++ I.st x :: xs.drop k) ∧ I.drops v' = I.drops v)
    (Before := fun v' => I.H v' xs ∧ I.drops v' = I.drops v) hs ⟨h, rfl⟩
    (fun st s1 hst => I.insertWith h he (hs.metaOk st s1 hst) (hg st.md s1 ⟨st, hst, rfl⟩) hk
      (hi st.md s1 ⟨st, hst, rfl⟩))).mono (fun _ _ h => h) ?_ (fun h => h)
  rintro st (⟨md, h1, h2, h3, h4⟩ | ⟨h1, h2, h3⟩ | h1)
  · exact .inl ⟨h2, h3, .inr ⟨md, h1, h4⟩⟩
  · exact .inl ⟨h2, h3, .inl h1⟩
  · exact .inr h1

theorem insertWith_out {σ : Type} (h : I.H v xs) (env : Env (Val T β)) {e : Emplacable σ T β} {s : σ} {k : Nat}
    (hk : xs.length < k) : RejectedWith v (run e Sink.dropping (s, ())) (Api.insertWithRun P env k e (s, v)) := by
  unfold Api.insertWithRun
  rw [Exec.get_bind]
  exact rejectedWith e s v (p := k ≤ P.len v) (by rw [I.len_eq h]; omega) _

/-! ## pop_into and remove_into -/

theorem popInto_run {x : Val T β} (h : I.H v (xs ++ [x])) (env : Env (Val T β)) {τ : Type} (m : Emplacer τ T β) (t : τ) :
    ∃ e, Api.popInto P env v = some e ∧
      SameOutcome (run e m (v, t)) (run (givenAs ⟨x.size, I.anno x⟩ env x) m (I.drops v, t)) (fun v' ds => I.H v' xs ∧ I.drops v' = ds)
        (fun v' ds => I.H v' xs ∧ I.drops v' = ds) := by
  obtain ⟨st, v1, h1, hg⟩ := I.pop h env
  refine ⟨P.popIntoUnchecked env, ?_, hg.run h1 m t⟩
  unfold Api.popInto
  rw [if_pos (by rw [I.len_eq h]; simp)]

theorem popInto_nil (h : I.H v []) (env : Env (Val T β)) : Api.popInto P env v = none := by
  unfold Api.popInto
  rw [if_neg (by rw [I.len_eq h]; simp)]

theorem removeInto_run (h : I.H v xs) (env : Env (Val T β)) {k : Nat} (hk : k < xs.length) (hr : I.remGuard v xs k)
    {τ : Type} (m : Emplacer τ T β) (t : τ) :
    SameOutcome (run (Api.removeInto P env k) m (v, t)) (run (givenAs ⟨xs[k].size, I.anno xs[k]⟩ env xs[k]) m (I.drops v, t))
      (fun v' ds => I.H v' (xs.eraseIdx k) ∧ I.drops v' = ds) (fun v' ds => I.H v' xs ∧ I.drops v' = ds) := by
  obtain ⟨st, v1, h1, hg⟩ := I.remove h env k hk hr
  refine hg.run ?_ m t
  unfold Api.removeInto
  rw [Exec.get_bind, Exec.assert_bind (by rw [I.len_eq h]; exact hk)]
  exact h1

theorem removeInto_out (h : I.H v xs) (env : Env (Val T β)) {k : Nat} (hk : xs.length ≤ k) :
    Api.removeInto P env k v = .panic v := by
  unfold Api.removeInto
  rw [Exec.get_bind]
  exact Exec.assert_bind_neg (p := k < P.len v) (by rw [I.len_eq h]; omega) _ _

/-! ## get and index -/

theorem get_in (h : I.H v xs) {k : Nat} (hk : k < xs.length) :
    ∃ r, Api.get P v k = some (some r) ∧ P.getUnchecked v k = some r ∧ r.md = xs[k].md := by
  obtain ⟨r, h1, h2⟩ := I.get h k hk
  refine ⟨r, ?_, h1, h2⟩
  unfold Api.get
  rw [if_pos (by rw [I.len_eq h]; exact hk), h1]
  rfl

theorem get_out (h : I.H v xs) {k : Nat} (hk : xs.length ≤ k) : Api.get P v k = some none := by
  unfold Api.get
  rw [if_neg (by rw [I.len_eq h]; omega)]

end Impl
end Verif
