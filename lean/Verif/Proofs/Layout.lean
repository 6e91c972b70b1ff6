import Verif.Proofs.Arith

/-!
# Lemmas on element layouts
-/

set_option linter.unusedSectionVars false

namespace Verif

variable {T : UTy} {β R : Type}

/-! ## totalWidth -/

@[simp] theorem totalWidth_nil (w : Nat → Nat) : totalWidth w ([] : List (Val T β)) = 0 := rfl
@[simp] theorem totalWidth_cons (w : Nat → Nat) (x : Val T β) (xs : List (Val T β)) :
    totalWidth w (x :: xs) = w x.size + totalWidth w xs := rfl

@[simp] theorem totalWidth_append (w : Nat → Nat) (xs ys : List (Val T β)) :
    totalWidth w (xs ++ ys) = totalWidth w xs + totalWidth w ys := by
  induction xs with
  | nil => simp
  | cons x xs ih => simp [ih, Nat.add_assoc]

theorem totalWidth_take_drop (w : Nat → Nat) (xs : List (Val T β)) (i : Nat) :
    totalWidth w (xs.take i) + totalWidth w (xs.drop i) = totalWidth w xs := by
  rw [← totalWidth_append, List.take_append_drop]

theorem totalWidth_take_le (w : Nat → Nat) (xs : List (Val T β)) (i : Nat) :
    totalWidth w (xs.take i) ≤ totalWidth w xs := by
  have := totalWidth_take_drop w xs i; omega

theorem totalWidth_take_succ (w : Nat → Nat) (xs : List (Val T β)) (i : Nat) (h : i < xs.length) :
    totalWidth w (xs.take (i + 1)) = totalWidth w (xs.take i) + w (xs[i]).size := by
  rw [← List.take_append_getElem h, totalWidth_append]; rfl

theorem totalWidth_take_mono (w : Nat → Nat) (xs : List (Val T β)) {i j : Nat} (h : i ≤ j) :
    totalWidth w (xs.take i) ≤ totalWidth w (xs.take j) := by
  have : xs.take i = (xs.take j).take i := by rw [List.take_take, Nat.min_eq_left h]
  rw [this]; exact totalWidth_take_le _ _ _

theorem totalWidth_mono {w w' : Nat → Nat} (h : ∀ n, w n ≤ w' n) (xs : List (Val T β)) : totalWidth w xs ≤ totalWidth w' xs := by
  induction xs with
  | nil => exact Nat.le_refl _
  | cons x xs ih => exact Nat.add_le_add (h _) ih

theorem dvd_totalWidth {a : Nat} (xs : List (Val T β)) : a ∣ totalWidth (padTo a) xs := by
  induction xs with
  | nil => simp
  | cons x xs ih => exact Nat.dvd_add (dvd_padTo _ _) ih

/-! ## infosFrom -/

@[simp] theorem infosFrom_nil (enc : T.Meta → R) (w : Nat → Nat) (off : Nat) :
    infosFrom enc w off ([] : List (Val T β)) = [] := rfl
@[simp] theorem infosFrom_cons (enc : T.Meta → R) (w : Nat → Nat) (off : Nat) (x : Val T β) (xs : List (Val T β)) :
    infosFrom enc w off (x :: xs) = ⟨enc x.md, off + x.size⟩ :: infosFrom enc w (off + w x.size) xs := rfl

@[simp] theorem infosFrom_length (enc : T.Meta → R) (w : Nat → Nat) (off : Nat) (xs : List (Val T β)) :
    (infosFrom enc w off xs).length = xs.length := by
  induction xs generalizing off with
  | nil => rfl
  | cons x xs ih => simp [ih]

theorem infosFrom_append (enc : T.Meta → R) (w : Nat → Nat) (off : Nat) (xs ys : List (Val T β)) :
    infosFrom enc w off (xs ++ ys) = infosFrom enc w off xs ++ infosFrom enc w (off + totalWidth w xs) ys := by
  induction xs generalizing off with
  | nil => simp
  | cons x xs ih => simp [ih, Nat.add_assoc]

theorem infosFrom_getElem? (enc : T.Meta → R) (w : Nat → Nat) (off : Nat) (xs : List (Val T β)) (i : Nat) :
    (infosFrom enc w off xs)[i]? =
      xs[i]?.map (fun x => ⟨enc x.md, off + totalWidth w (xs.take i) + x.size⟩) := by
  induction xs generalizing off i with
  | nil => simp
  | cons x xs ih =>
    cases i with
    | zero => simp
    | succ i => simp [ih, Nat.add_assoc]

theorem infosFrom_take (enc : T.Meta → R) (w : Nat → Nat) (off : Nat) (xs : List (Val T β)) (i : Nat) :
    (infosFrom enc w off xs).take i = infosFrom enc w off (xs.take i) := by
  induction xs generalizing off i with
  | nil => simp
  | cons x xs ih =>
    cases i with
    | zero => simp
    | succ i => simp [ih]

theorem infosFrom_drop (enc : T.Meta → R) (w : Nat → Nat) (off : Nat) (xs : List (Val T β)) (i : Nat) :
    (infosFrom enc w off xs).drop i = infosFrom enc w (off + totalWidth w (xs.take i)) (xs.drop i) := by
  induction xs generalizing off i with
  | nil => simp
  | cons x xs ih =>
    cases i with
    | zero => simp
    | succ i => simp [ih, Nat.add_assoc]

theorem infosFrom_shift (enc : T.Meta → R) (w : Nat → Nat) (off k : Nat) (xs : List (Val T β)) :
    (infosFrom enc w off xs).map (fun e => { e with endOff := e.endOff + k }) = infosFrom enc w (off + k) xs := by
  induction xs generalizing off with
  | nil => rfl
  | cons x xs ih =>
    simp only [infosFrom_cons, List.map_cons, ih]
    rw [Nat.add_right_comm off x.size k, Nat.add_right_comm off (w x.size) k]

theorem infosFrom_concat (enc : T.Meta → R) (w : Nat → Nat) (off : Nat) (xs : List (Val T β)) (x : Val T β) :
    infosFrom enc w off (xs ++ [x]) =
      infosFrom enc w off xs ++ [⟨enc x.md, off + totalWidth w xs + x.size⟩] := by
  rw [infosFrom_append]; rfl

theorem infosFrom_dropLast (enc : T.Meta → R) (w : Nat → Nat) (off : Nat) (xs : List (Val T β)) :
    (infosFrom enc w off xs).dropLast = infosFrom enc w off xs.dropLast := by
  rw [List.dropLast_eq_take, List.dropLast_eq_take, infosFrom_length, infosFrom_take]

theorem infosFrom_endOff_le (enc : T.Meta → R) (w : Nat → Nat) (off : Nat) (xs : List (Val T β))
    (hw : ∀ x ∈ xs, x.size ≤ w x.size) (e : Info R) (he : e ∈ infosFrom enc w off xs) :
    e.endOff ≤ off + totalWidth w xs := by
  induction xs generalizing off with
  | nil => simp at he
  | cons x xs ih =>
    simp only [infosFrom_cons, List.mem_cons] at he
    rcases he with rfl | he
    · have := hw x (List.mem_cons_self); simp; omega
    · have := ih _ (fun y hy => hw y (List.mem_cons_of_mem _ hy)) he
      simp; omega

/-! ## memory -/

theorem BytesAre.congr {mem mem' : Nat → β} {off off' : Nat} {bs : List β} (h : BytesAre mem off bs)
    (he : ∀ i, i < bs.length → mem' (off' + i) = mem (off + i)) : BytesAre mem' off' bs := by
  intro i hi
  rw [he i hi]; exact h i hi

theorem MemAt.congr {mem mem' : Nat → β} {w : Nat → Nat} {off off' : Nat} {xs : List (Val T β)}
    (hw : ∀ x ∈ xs, x.bytes.length ≤ w x.size) (h : MemAt mem w off xs)
    (he : ∀ i, i < totalWidth w xs → mem' (off' + i) = mem (off + i)) : MemAt mem' w off' xs := by
  induction xs generalizing off off' with
  | nil => trivial
  | cons x xs ih =>
    have hx := hw x (List.mem_cons_self)
    refine ⟨h.1.congr fun i hi => he i (by simp; omega), ih (fun y hy => hw y (List.mem_cons_of_mem _ hy)) h.2 ?_⟩
    intro i hi
    have := he (w x.size + i) (by simp; omega)
    rw [← Nat.add_assoc, ← Nat.add_assoc] at this
    exact this

theorem memAt_append {mem : Nat → β} {w : Nat → Nat} {off : Nat} {xs ys : List (Val T β)} :
    MemAt mem w off (xs ++ ys) ↔ MemAt mem w off xs ∧ MemAt mem w (off + totalWidth w xs) ys := by
  induction xs generalizing off with
  | nil => simp [MemAt]
  | cons x xs ih => simp [MemAt, ih, and_assoc, Nat.add_assoc]

theorem memAt_getElem {mem : Nat → β} {w : Nat → Nat} {off : Nat} {xs : List (Val T β)} (h : MemAt mem w off xs)
    (i : Nat) (hi : i < xs.length) : BytesAre mem (off + totalWidth w (xs.take i)) xs[i].bytes := by
  induction xs generalizing off i with
  | nil => simp at hi
  | cons x xs ih =>
    cases i with
    | zero => simpa using h.1
    | succ i =>
      have := ih h.2 i (by simpa using hi)
      simpa [Nat.add_assoc] using this

variable [Inhabited β]

theorem bytesAt_eq {h : Heap β} {off n : Nat} {bs : List β} (hb : BytesAre h.mem off bs) (hn : bs.length = n) :
    h.bytesAt off n = bs := by
  subst hn
  apply List.ext_getElem
  · simp [Heap.bytesAt]
  · intro i h1 h2
    simp only [Heap.bytesAt, List.getElem_map, List.getElem_range]
    exact hb i h2

theorem bytesAre_bytesAt (h : Heap β) (off n : Nat) : BytesAre h.mem off (h.bytesAt off n) := by
  intro i hi
  simp [Heap.bytesAt]

theorem Ref.read_eq {h : Heap β} {r : Ref T} {x : Val T β} (hmd : r.md = x.md)
    (hb : BytesAre h.mem r.off x.bytes) (hl : x.bytes.length = x.size) : r.read h = x := by
  unfold Ref.read
  rw [hmd]
  have : h.bytesAt r.off (T.sizeOf x.md) = x.bytes := bytesAt_eq hb hl
  rw [this]

/-! ## blocks -/

theorem BlockOk.span {h : Heap β} {p cap a : Nat} (hb : BlockOk h p cap a) : cap ≤ h.span p := by
  obtain ⟨_, _, hb⟩ := hb
  unfold Heap.span
  cases hbl : h.block with
  | none => rw [hbl] at hb; simp at hb; omega
  | some b =>
    rw [hbl] at hb
    simp only at hb ⊢
    rw [if_pos hb.2.1.symm]; omega

theorem BlockOk.fits {h : Heap β} {p cap a : Nat} (hb : BlockOk h p cap a) (hc : 0 < cap) : h.fits p ⟨cap, a⟩ := by
  obtain ⟨_, _, hb⟩ := hb
  unfold Heap.fits
  cases hbl : h.block with
  | none => rw [hbl] at hb; simp at hb; omega
  | some b =>
    rw [hbl] at hb
    simp only at hb ⊢
    exact ⟨hb.2.1.symm, hb.2.2.1.symm, hb.2.2.2.1, hb.2.2.2.2⟩

theorem BlockOk.none_of_zero {h : Heap β} {p a : Nat} (hb : BlockOk h p 0 a) : h.block = none := by
  obtain ⟨_, _, hb⟩ := hb
  cases hbl : h.block with
  | none => rfl
  | some b => rw [hbl] at hb; simp at hb

/-- A block for which more was requested than the capacity is another block. -/
theorem BlockOk.block_ne {h : Heap β} {p cap a : Nat} (hb : BlockOk h p cap a) {b : Block} (hlt : cap < b.reqSize) :
    h.block ≠ some b := by
  obtain ⟨_, _, hb⟩ := hb
  intro he
  rw [he] at hb
  exact absurd hb.2.2.2.1 (by omega)

theorem BlockOk.mem_eq {h h' : Heap β} {p cap a : Nat} (hb : BlockOk h p cap a) (he : h'.block = h.block) :
    BlockOk h' p cap a := by
  unfold BlockOk at *; rw [he]; exact hb

/-! ## heap operations -/

theorem copy_eq {h : Heap β} {p src dst n : Nat} (h1 : src + n ≤ h.span p) (h2 : dst + n ≤ h.span p) :
    h.copy p src dst n =
      some { h with mem := fun i => if dst ≤ i ∧ i < dst + n then h.mem (src + (i - dst)) else h.mem i } := by
  unfold Heap.copy Heap.addOk
  rw [if_pos ⟨by omega, by omega, h1, h2⟩]

theorem write_eq {h : Heap β} {p dst : Nat} {bs : List β} (h1 : dst + bs.length ≤ h.span p) :
    h.write p dst bs =
      some { h with mem := fun i => if dst ≤ i ∧ i < dst + bs.length then bs.getD (i - dst) default else h.mem i } := by
  unfold Heap.write Heap.addOk
  rw [if_pos ⟨by omega, h1⟩]

theorem read_eq {h : Heap β} {p off n : Nat} (h1 : off + n ≤ h.span p) :
    h.read p off n = some (h.bytesAt off n) := by
  unfold Heap.read Heap.addOk
  rw [if_pos ⟨by omega, h1⟩]

theorem mkRef_eq {h : Heap β} {p off : Nat} {md : T.Meta} (h1 : off + T.sizeOf md ≤ h.span p)
    (h2 : T.alignOf md ∣ p + off) : mkRef h p off md = some ⟨p, off, md⟩ := by
  unfold mkRef Heap.addOk
  rw [if_pos ⟨by omega, h1, Nat.mod_eq_zero_of_dvd h2⟩]

end Verif
