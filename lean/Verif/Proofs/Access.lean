import Verif.Proofs.UOps
import Verif.Proofs.AOps

/-!
# Overwriting an element in place
-/

namespace Verif
variable {T : UTy} {β R : Type}

theorem totalWidth_set {w : Nat → Nat} {xs : List (Val T β)} {k : Nat} {y : Val T β} (hk : k < xs.length)
    (hy : y.md = xs[k].md) : totalWidth w (xs.set k y) = totalWidth w xs := by
  induction xs generalizing k with
  | nil => rfl
  | cons x xs ih =>
    cases k with
    | zero =>
      have : y.md = x.md := hy
      simp [Val.size, this]
    | succ k =>
      have := ih (k := k) (by simpa using hk) (by simpa using hy)
      simp [this]

theorem infosFrom_set {enc : T.Meta → R} {w : Nat → Nat} {off : Nat} {xs : List (Val T β)} {k : Nat} {y : Val T β}
    (hk : k < xs.length) (hy : y.md = xs[k].md) : infosFrom enc w off (xs.set k y) = infosFrom enc w off xs := by
  induction xs generalizing k off with
  | nil => rfl
  | cons x xs ih =>
    cases k with
    | zero =>
      have : y.md = x.md := hy
      simp [infosFrom, Val.size, this]
    | succ k =>
      have := ih (k := k) (off := off + w x.size) (by simpa using hk) (by simpa using hy)
      simp [infosFrom, this]

variable [Inhabited β]

theorem memAt_set {mem : Nat → β} {w : Nat → Nat} {off : Nat} {xs : List (Val T β)} {k : Nat} {bs : List β}
    (hw : ∀ n, n ≤ w n) (hb : ∀ x ∈ xs, x.bytes.length = x.size) (h : MemAt mem w off xs) (hk : k < xs.length)
    (hbs : bs.length = xs[k].size) :
    MemAt (written mem (off + totalWidth w (xs.take k)) bs) w off (xs.set k ⟨xs[k].md, bs⟩) := by
  induction xs generalizing k off with
  | nil => simp at hk
  | cons x xs ih =>
    have hx := hw x.size
    cases k with
    | zero =>
      refine ⟨?_, ?_⟩
      · simpa using bytesAre_written mem off bs
      · refine h.2.frame hw (fun y hy => hb y (List.mem_cons_of_mem _ hy)) fun i h1 _ => ?_
        have hbs : bs.length = x.size := hbs
        have h1 : off + w x.size ≤ i := h1
        unfold written
        rw [if_neg (by simp; omega)]
    | succ k =>
      have hlen := hb x List.mem_cons_self
      have := ih (k := k) (off := off + w x.size) (fun y hy => hb y (List.mem_cons_of_mem _ hy)) h.2 (by simpa using hk)
        (by simpa using hbs)
      refine ⟨h.1.congr fun i hi => ?_, ?_⟩
      · unfold written
        rw [if_neg (by simp; omega)]
      · simpa [Nat.add_assoc] using this

namespace UVec
variable {G : Prop} {c : Cfg} {v : UVec T β} {xs : List (Val T β)}

theorem set_holds (h : v.Represents G c xs) (k : Nat) (hk : k < xs.length) {bs : List β} (hbs : bs.length = xs[k].size) :
    ({ v with heap := { v.heap with mem := written v.heap.mem (totalWidth (padTo v.align) (xs.take k)) bs } } : UVec T β).Represents G c
      (xs.set k ⟨xs[k].md, bs⟩) where
  wf y hy := by
    rcases List.mem_or_eq_of_mem_set hy with h1 | rfl
    · exact h.wf y h1
    · have := h.wf xs[k] (List.getElem_mem hk)
      exact ⟨hbs, this.align_pow, this.align_dvd, this.size_le⟩
  al := h.al
  elemAl y hy := by
    rcases List.mem_or_eq_of_mem_set hy with h1 | rfl
    · exact h.elemAl y h1
    · exact h.elemAl xs[k] (List.getElem_mem hk)
  infos := by rw [infosFrom_set (y := ⟨xs[k].md, bs⟩) hk rfl]; exact h.infos
  recs := by rw [List.length_set]; exact h.recs
  cap := by rw [totalWidth_set (y := ⟨xs[k].md, bs⟩) hk rfl]; exact h.cap
  capDvd := h.capDvd
  room := h.room
  mem := by simpa using memAt_set h.le_w h.bytes h.mem hk hbs
  block := h.block.mem_eq rfl
  leaks := h.leaks

end UVec

namespace AVec
variable {A : ATy} {c : Cfg} {v : AVec A β} {xs : List (Val A.ty β)}

theorem set_holds (h : v.Holds c xs) (k : Nat) (hk : k < xs.length) {bs : List β} (hbs : bs.length = xs[k].size) :
    ({ v with heap := { v.heap with mem := written v.heap.mem (totalWidth id (xs.take k)) bs } } : AVec A β).Holds c
      (xs.set k ⟨xs[k].md, bs⟩) where
  wf y hy := by
    rcases List.mem_or_eq_of_mem_set hy with h1 | rfl
    · exact h.wf y h1
    · have := h.wf xs[k] (List.getElem_mem hk)
      exact ⟨hbs, this.align_pow, this.align_dvd, this.size_le⟩
  keeps y hy := by
    rcases List.mem_or_eq_of_mem_set hy with h1 | rfl
    · exact h.keeps y h1
    · exact h.keeps xs[k] (List.getElem_mem hk)
  infos := by rw [infosFrom_set (y := ⟨xs[k].md, bs⟩) hk rfl]; exact h.infos
  recs := by rw [List.length_set]; exact h.recs
  cap := by rw [totalWidth_set (y := ⟨xs[k].md, bs⟩) hk rfl]; exact h.cap
  capMax := h.capMax
  mem := by simpa using memAt_set le_id h.bytes h.mem hk hbs
  block := h.block.mem_eq rfl
  leaks := h.leaks

end AVec
end Verif
