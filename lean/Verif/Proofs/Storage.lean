import Verif.Proofs.Layout
import Verif.Proofs.Exec
import Verif.Model.Aligned

/-!
# Moving elements inside the storage

Lemmas shared by the statically and dynamically aligned implementations. `w` is the width an element of a given size
occupies.
-/

namespace Verif
variable {T : UTy} {β R : Type}

/-- Where the last element ends. -/
def extent (w : Nat → Nat) (xs : List (Val T β)) : Nat :=
  match xs.getLast? with
  | some x => totalWidth w xs.dropLast + x.size
  | none => 0

@[simp] theorem extent_nil (w : Nat → Nat) : extent w ([] : List (Val T β)) = 0 := rfl

@[simp] theorem extent_concat (w : Nat → Nat) (xs : List (Val T β)) (x : Val T β) :
    extent w (xs ++ [x]) = totalWidth w xs + x.size := by
  unfold extent; simp

theorem extent_le (w : Nat → Nat) (hw : ∀ n, n ≤ w n) (xs : List (Val T β)) : extent w xs ≤ totalWidth w xs := by
  rcases List.eq_nil_or_concat xs with rfl | ⟨ys, x, rfl⟩
  · simp
  · have := hw x.size
    rw [List.concat_eq_append]; simp; omega

theorem extent_id (xs : List (Val T β)) : extent id xs = totalWidth id xs := by
  rcases List.eq_nil_or_concat xs with rfl | ⟨ys, x, rfl⟩
  · simp
  · rw [List.concat_eq_append]; simp

theorem elem_le_extent (w : Nat → Nat) (hw : ∀ n, n ≤ w n) (xs : List (Val T β)) (j : Nat) (hj : j < xs.length) :
    totalWidth w (xs.take j) + xs[j].size ≤ extent w xs := by
  rcases List.eq_nil_or_concat xs with rfl | ⟨ys, x, rfl⟩
  · simp at hj
  · simp only [List.concat_eq_append] at hj ⊢
    rw [extent_concat]
    by_cases hlt : j < ys.length
    · have h1 := totalWidth_take_succ w ys j hlt
      have h2 := totalWidth_take_le w ys (j + 1)
      have h3 := hw ys[j].size
      rw [List.getElem_append_left hlt, List.take_append_of_le_length (by omega)]
      omega
    · have : j = ys.length := by simp at hj; omega
      subst this
      simp

theorem extent_append (w : Nat → Nat) (xs ys : List (Val T β)) (h : ys ≠ []) :
    extent w (xs ++ ys) = totalWidth w xs + extent w ys := by
  rcases List.eq_nil_or_concat ys with rfl | ⟨zs, x, rfl⟩
  · exact absurd rfl h
  · rw [List.concat_eq_append, ← List.append_assoc, extent_concat, extent_concat]
    simp; omega

theorem MemAt.congr_extent {mem mem' : Nat → β} {w : Nat → Nat} {off off' : Nat} {xs : List (Val T β)}
    (hw : ∀ n, n ≤ w n) (hb : ∀ x ∈ xs, x.bytes.length = x.size) (h : MemAt mem w off xs)
    (he : ∀ i, i < extent w xs → mem' (off' + i) = mem (off + i)) : MemAt mem' w off' xs := by
  induction xs generalizing off off' with
  | nil => trivial
  | cons x xs ih =>
    have hx := hb x List.mem_cons_self
    have hle : x.size ≤ extent w (x :: xs) := by
      have := elem_le_extent w hw (x :: xs) 0 (by simp)
      simpa using this
    refine ⟨h.1.congr fun i hi => he i (by omega), ih (fun y hy => hb y (List.mem_cons_of_mem _ hy)) h.2 ?_⟩
    intro i hi
    have hne : xs ≠ [] := by rintro rfl; simp at hi
    have he' : extent w (x :: xs) = w x.size + extent w xs := by
      have := extent_append w [x] xs hne
      simpa using this
    have := he (w x.size + i) (by omega)
    rw [← Nat.add_assoc, ← Nat.add_assoc] at this
    exact this

theorem MemAt.frame {mem mem' : Nat → β} {w : Nat → Nat} {off : Nat} {xs : List (Val T β)}
    (hw : ∀ n, n ≤ w n) (hb : ∀ x ∈ xs, x.bytes.length = x.size) (h : MemAt mem w off xs)
    (he : ∀ i, off ≤ i → i < off + totalWidth w xs → mem' i = mem i) : MemAt mem' w off xs :=
  h.congr (fun x hx => by rw [hb x hx]; exact hw _) fun i hi => he _ (by omega) (by omega)

/-- The memory after writing bytes. -/
def written [Inhabited β] (mem : Nat → β) (dst : Nat) (bs : List β) : Nat → β :=
  fun i => if dst ≤ i ∧ i < dst + bs.length then bs.getD (i - dst) default else mem i

/-- The memory after a `memmove`. -/
def moved (mem : Nat → β) (src dst n : Nat) : Nat → β :=
  fun i => if dst ≤ i ∧ i < dst + n then mem (src + (i - dst)) else mem i

theorem bytesAre_written [Inhabited β] (mem : Nat → β) (dst : Nat) (bs : List β) :
    BytesAre (written mem dst bs) dst bs := by
  intro i hi
  unfold written
  rw [if_pos (by omega), show dst + i - dst = i by omega]
  simp [hi]

/-- Writing a new element behind the last one. -/
theorem memAt_push [Inhabited β] {mem : Nat → β} {w : Nat → Nat} {xs : List (Val T β)} {x : Val T β}
    (hw : ∀ n, n ≤ w n) (hb : ∀ x ∈ xs, x.bytes.length = x.size) (h : MemAt mem w 0 xs) :
    MemAt (written mem (totalWidth w xs) x.bytes) w 0 (xs ++ [x]) := by
  rw [memAt_append]
  refine ⟨h.frame hw hb fun i _ hi => ?_, ?_, trivial⟩
  · unfold written; rw [if_neg (by omega)]
  · rw [Nat.zero_add]; exact bytesAre_written _ _ _

/-- Making room for a new element at index `k` (a gap of `w n` bytes), and writing into the gap. -/
theorem memAt_insert [Inhabited β] {mem : Nat → β} {w : Nat → Nat} {xs : List (Val T β)} {x : Val T β} {k n : Nat}
    (hw : ∀ n, n ≤ w n) (hb : ∀ x ∈ xs, x.bytes.length = x.size) (hx : x.bytes.length = x.size)
    (h : MemAt mem w 0 xs) (hn : extent w xs - totalWidth w (xs.take k) ≤ n) :
    MemAt (written (moved mem (totalWidth w (xs.take k)) (totalWidth w (xs.take k) + w x.size) n)
      (totalWidth w (xs.take k)) x.bytes) w 0 (xs.take k ++ x :: xs.drop k) := by
  have hxs : MemAt mem w 0 (xs.take k ++ xs.drop k) := by rw [List.take_append_drop]; exact h
  rw [memAt_append] at hxs ⊢
  have hbt : ∀ y ∈ xs.take k, y.bytes.length = y.size := fun y hy => hb y (List.mem_of_mem_take hy)
  have hbd : ∀ y ∈ xs.drop k, y.bytes.length = y.size := fun y hy => hb y (List.mem_of_mem_drop hy)
  have hwx := hw x.size
  refine ⟨hxs.1.frame hw hbt fun i _ hi => ?_, ?_, ?_⟩
  · unfold written moved
    rw [if_neg (by omega), if_neg (by omega)]
  · rw [Nat.zero_add]; exact bytesAre_written _ _ _
  · rw [Nat.zero_add] at hxs ⊢
    refine MemAt.congr_extent hw hbd hxs.2 fun i hi => ?_
    have hne : xs.drop k ≠ [] := by intro h0; rw [h0] at hi; simp at hi
    have he := extent_append w (xs.take k) (xs.drop k) hne
    rw [List.take_append_drop] at he
    unfold written moved
    rw [if_neg (by omega), if_pos (by omega)]
    congr 1
    omega

/-- Moving the tail away, writing anything into the gap, and moving the tail back. -/
theorem memAt_insert_undo [Inhabited β] {mem : Nat → β} {w : Nat → Nat} {xs : List (Val T β)} {bs : List β}
    {k n g : Nat}
    (hw : ∀ n, n ≤ w n) (hb : ∀ x ∈ xs, x.bytes.length = x.size) (hg : bs.length ≤ g)
    (h : MemAt mem w 0 xs) (hn : extent w xs - totalWidth w (xs.take k) ≤ n) :
    MemAt (moved (written (moved mem (totalWidth w (xs.take k)) (totalWidth w (xs.take k) + g) n)
      (totalWidth w (xs.take k)) bs) (totalWidth w (xs.take k) + g) (totalWidth w (xs.take k)) n) w 0 xs := by
  refine MemAt.congr_extent hw hb h fun i hi => ?_
  simp only [Nat.zero_add]
  unfold moved
  by_cases hi' : totalWidth w (xs.take k) ≤ i ∧ i < totalWidth w (xs.take k) + n
  · rw [if_pos hi']
    unfold written
    rw [if_neg (by omega)]
    dsimp only
    rw [if_pos (by omega)]
    congr 1; omega
  · rw [if_neg hi']
    unfold written
    rw [if_neg (by omega)]
    dsimp only
    rw [if_neg (by omega)]

/-- Closing the gap left by element `k`. -/
theorem memAt_remove {mem : Nat → β} {w : Nat → Nat} {xs : List (Val T β)} {k n : Nat} (hk : k < xs.length)
    (hw : ∀ n, n ≤ w n) (hb : ∀ x ∈ xs, x.bytes.length = x.size)
    (h : MemAt mem w 0 xs) (hn : extent w xs ≤ totalWidth w (xs.take k) + w xs[k].size + n) :
    MemAt (moved mem (totalWidth w (xs.take k) + w xs[k].size) (totalWidth w (xs.take k)) n) w 0 (xs.eraseIdx k) := by
  have hsplit : xs = xs.take k ++ xs[k] :: xs.drop (k + 1) := by
    rw [List.getElem_cons_drop, List.take_append_drop]
  rw [List.eraseIdx_eq_take_drop_succ, memAt_append]
  have hbt : ∀ y ∈ xs.take k, y.bytes.length = y.size := fun y hy => hb y (List.mem_of_mem_take hy)
  have hbd : ∀ y ∈ xs.drop (k + 1), y.bytes.length = y.size := fun y hy => hb y (List.mem_of_mem_drop hy)
  have h' : MemAt mem w 0 (xs.take k ++ xs[k] :: xs.drop (k + 1)) := by rw [← hsplit]; exact h
  rw [memAt_append] at h'
  refine ⟨h'.1.frame hw hbt fun i _ hi => ?_, ?_⟩
  · unfold moved; rw [if_neg (by omega)]
  · have h2 := h'.2.2
    rw [Nat.zero_add] at h2 ⊢
    refine MemAt.congr_extent hw hbd h2 fun i hi => ?_
    have hne : xs.drop (k + 1) ≠ [] := by intro h0; rw [h0] at hi; simp at hi
    have he := extent_append w (xs.take k ++ [xs[k]]) (xs.drop (k + 1)) hne
    have hsplit' : xs.take k ++ [xs[k]] ++ xs.drop (k + 1) = xs := by simp
    rw [hsplit', totalWidth_append] at he
    simp only [totalWidth_cons, totalWidth_nil] at he
    unfold moved
    rw [if_pos (by omega)]
    congr 1
    omega

/-! ## Records -/

theorem UVec.bumpInfos_eq {c : Cfg} {enc : T.Meta → R} {w : Nat → Nat} {off k : Nat} {xs : List (Val T β)}
    (hw : ∀ n, n ≤ w n) (hle : off + totalWidth w xs + k ≤ c.isizeMax) :
    UVec.bumpInfos c k (infosFrom enc w off xs) = some (infosFrom enc w (off + k) xs) := by
  induction xs generalizing off with
  | nil => rfl
  | cons x xs ih =>
    have := hw x.size
    simp only [totalWidth_cons] at hle
    simp only [infosFrom_cons, UVec.bumpInfos]
    rw [VSU.uncheckedAdd_eq (by omega), ih (by omega)]
    simp only [Option.bind_eq_bind, Option.bind_some, pure]
    rw [Nat.add_right_comm off x.size k, Nat.add_right_comm off (w x.size) k]

theorem AVec.bumpInfos_eq {c : Cfg} {a : Nat} {enc : T.Meta → R} {w : Nat → Nat} {off k : Nat} {xs : List (Val T β)}
    (hw : ∀ n, n ≤ w n) (hle : off + totalWidth w xs + k ≤ VS.max c a) :
    AVec.bumpInfos c a k (infosFrom enc w off xs) = some (infosFrom enc w (off + k) xs) := by
  induction xs generalizing off with
  | nil => rfl
  | cons x xs ih =>
    have := hw x.size
    simp only [totalWidth_cons] at hle
    simp only [infosFrom_cons, AVec.bumpInfos]
    rw [VS.uncheckedAdd_eq (by omega), ih (by omega)]
    simp only [Option.bind_eq_bind, Option.bind_some, pure]
    rw [Nat.add_right_comm off x.size k, Nat.add_right_comm off (w x.size) k]

theorem UVec.unbumpInfos_eq {c : Cfg} {enc : T.Meta → R} {w : Nat → Nat} {off k : Nat} {xs : List (Val T β)}
    (hw : ∀ n, n ≤ w n) (hle : off + totalWidth w xs ≤ c.isizeMax) :
    UVec.unbumpInfos c k (infosFrom enc w (off + k) xs) = some (infosFrom enc w off xs) := by
  induction xs generalizing off with
  | nil => rfl
  | cons x xs ih =>
    have := hw x.size
    simp only [totalWidth_cons] at hle
    simp only [infosFrom_cons, UVec.unbumpInfos]
    rw [VSU.uncheckedSub_eq (by omega) (by omega), Nat.add_right_comm off k (w x.size), ih (by omega)]
    simp only [Option.bind_eq_bind, Option.bind_some, pure]
    rw [show off + k + x.size - k = off + x.size by omega]

theorem AVec.unbumpInfos_eq {c : Cfg} {a : Nat} {enc : T.Meta → R} {w : Nat → Nat} {off k : Nat} {xs : List (Val T β)}
    (hw : ∀ n, n ≤ w n) (hle : off + totalWidth w xs ≤ VS.max c a) :
    AVec.unbumpInfos c a k (infosFrom enc w (off + k) xs) = some (infosFrom enc w off xs) := by
  induction xs generalizing off with
  | nil => rfl
  | cons x xs ih =>
    have := hw x.size
    simp only [totalWidth_cons] at hle
    simp only [infosFrom_cons, AVec.unbumpInfos]
    rw [VS.uncheckedSub_eq (by omega) (by omega), Nat.add_right_comm off k (w x.size), ih (by omega)]
    simp only [Option.bind_eq_bind, Option.bind_some, pure]
    rw [show off + k + x.size - k = off + x.size by omega]

/-- The records after making room and inserting a record. -/
theorem infosFrom_insert (enc : T.Meta → R) (w : Nat → Nat) (xs : List (Val T β)) (x : Val T β) (k : Nat) :
    infosFrom enc w 0 (xs.take k ++ x :: xs.drop k) =
      infosFrom enc w 0 (xs.take k) ++ ⟨enc x.md, totalWidth w (xs.take k) + x.size⟩ ::
        infosFrom enc w (totalWidth w (xs.take k) + w x.size) (xs.drop k) := by
  rw [infosFrom_append]; simp

theorem infosFrom_eraseIdx (enc : T.Meta → R) (w : Nat → Nat) (xs : List (Val T β)) (k : Nat) :
    infosFrom enc w 0 (xs.eraseIdx k) =
      infosFrom enc w 0 (xs.take k) ++ infosFrom enc w (totalWidth w (xs.take k)) (xs.drop (k + 1)) := by
  rw [List.eraseIdx_eq_take_drop_succ, infosFrom_append]; simp

theorem infosFrom_split (enc : T.Meta → R) (w : Nat → Nat) (xs : List (Val T β)) (k : Nat) (hk : k < xs.length) :
    (infosFrom enc w 0 xs).eraseIdx k =
      infosFrom enc w 0 (xs.take k) ++ infosFrom enc w (totalWidth w (xs.take k) + w xs[k].size) (xs.drop (k + 1)) := by
  rw [List.eraseIdx_eq_take_drop_succ, infosFrom_take, infosFrom_drop, totalWidth_take_succ w xs k hk]
  simp

theorem lastEnd_infosFrom (enc : T.Meta → R) (w : Nat → Nat) (xs : List (Val T β)) :
    lastEnd (infosFrom enc w 0 xs) = extent w xs := by
  unfold lastEnd
  rcases List.eq_nil_or_concat xs with rfl | ⟨ys, x, rfl⟩
  · rfl
  · rw [List.concat_eq_append, infosFrom_concat, extent_concat]; simp

end Verif
