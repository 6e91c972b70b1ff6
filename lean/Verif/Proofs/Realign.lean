import Verif.Proofs.Layout
import Verif.Proofs.Exec
import Verif.Model.Unaligned

/-!
# `len_after_realign_up` and `realign_up`
-/

namespace Verif
variable {T : UTy} {β : Type}

theorem padTo_le_of_dvd_dvd {a b : Nat} (ha : 0 < a) (hb : 0 < b) (hd : a ∣ b) (n : Nat) : padTo a n ≤ padTo b n :=
  padTo_le_padTo_of_dvd hb ha hd n

theorem totalWidth_mono_align {a b : Nat} (ha : 0 < a) (hb : 0 < b) (hd : a ∣ b) (xs : List (Val T β)) :
    totalWidth (padTo a) xs ≤ totalWidth (padTo b) xs := by
  induction xs with
  | nil => simp
  | cons x xs ih =>
    have := padTo_le_of_dvd_dvd ha hb hd x.size
    simp; omega

namespace UVec

theorem lenAfterRealignUpGo_eq {c : Cfg} {a b : Nat} (ha : IsAlign c a) (hb : IsAlign c b) (hd : a ∣ b)
    (xs : List (Val T β)) (off shift : Nat) (hoff : b ∣ off + shift) (hle : off + shift ≤ c.isizeMax) :
    lenAfterRealignUpGo (T := T) c a b (infosFrom id (padTo a) off xs) shift (off + shift) =
      some (if off + shift + totalWidth (padTo b) xs ≤ c.isizeMax then some (off + shift + totalWidth (padTo b) xs)
        else none) := by
  induction xs generalizing off shift with
  | nil => simp [lenAfterRealignUpGo, hle]
  | cons x xs ih =>
    have hoff' : a ∣ off + shift := Nat.dvd_trans hd hoff
    have e1 : off + x.size + shift = off + shift + x.size := by omega
    have hsz := le_padTo hb.pos x.size
    have hab := padTo_le_of_dvd_dvd ha.pos hb.pos hd x.size
    rw [totalWidth_cons]
    simp only [infosFrom_cons, lenAfterRealignUpGo, VSU.checkedAdd_eq, e1]
    by_cases h1 : off + shift + x.size ≤ c.isizeMax
    · rw [if_pos h1]
      simp only [VSU.checkedPadTo_eq hb h1, padTo_add hb.pos hoff, Option.bind_eq_bind, Option.bind_some]
      by_cases h2 : off + shift + padTo b x.size ≤ c.isizeMax
      · rw [if_pos h2]
        simp only
        rw [VSU.uncheckedPadTo_eq ha h1 (by rw [padTo_add ha.pos hoff']; omega), padTo_add ha.pos hoff',
          Option.bind_some, VSU.uncheckedSub_eq (by omega) (by omega), Option.bind_some,
          if_pos (by omega)]
        simp only
        have := ih (off + padTo a x.size) (shift + (off + shift + padTo b x.size - (off + shift + padTo a x.size)))
          (by
            rw [show off + padTo a x.size + (shift + (off + shift + padTo b x.size - (off + shift + padTo a x.size)))
              = off + shift + padTo b x.size by omega]
            exact Nat.dvd_add hoff (dvd_padTo _ _)) (by omega)
        rw [show off + padTo a x.size + (shift + (off + shift + padTo b x.size - (off + shift + padTo a x.size)))
              = off + shift + padTo b x.size by omega] at this
        rw [this, Nat.add_assoc (off + shift)]
      · rw [if_neg h2]
        simp only [pure]
        rw [if_neg (by omega)]
    · rw [if_neg h1]
      simp only
      rw [if_neg (by omega)]

theorem realignUpOffsets_eq {c : Cfg} {a b : Nat} (ha : IsAlign c a) (hb : IsAlign c b) (hd : a ∣ b)
    (xs : List (Val T β)) (off shift : Nat) (hoff : b ∣ off + shift)
    (hle : off + shift + totalWidth (padTo b) xs ≤ c.isizeMax) :
    realignUpOffsets (T := T) c a b (infosFrom id (padTo a) off xs) shift =
      some (infosFrom id (padTo b) (off + shift) xs,
        shift + (totalWidth (padTo b) xs - totalWidth (padTo a) xs)) := by
  induction xs generalizing off shift with
  | nil => simp [realignUpOffsets]
  | cons x xs ih =>
    have hoff' : a ∣ off + shift := Nat.dvd_trans hd hoff
    have e1 : off + x.size + shift = off + shift + x.size := by omega
    have hsz := le_padTo hb.pos x.size
    have hab := padTo_le_of_dvd_dvd ha.pos hb.pos hd x.size
    have htw := totalWidth_mono_align ha.pos hb.pos hd xs
    simp only [totalWidth_cons] at hle
    simp only [infosFrom_cons, realignUpOffsets, totalWidth_cons, Option.bind_eq_bind]
    rw [VSU.uncheckedAdd_eq (by omega), Option.bind_some, e1,
      VSU.uncheckedPadTo_eq hb (by omega) (by rw [padTo_add hb.pos hoff]; omega), Option.bind_some,
      VSU.uncheckedPadTo_eq ha (by omega) (by rw [padTo_add ha.pos hoff']; omega), Option.bind_some,
      padTo_add hb.pos hoff, padTo_add ha.pos hoff',
      VSU.uncheckedSub_eq (by omega) (by omega), Option.bind_some,
      VSU.uncheckedAdd_eq (by omega), Option.bind_some]
    have e2 : off + padTo a x.size + (shift + (off + shift + padTo b x.size - (off + shift + padTo a x.size)))
              = off + shift + padTo b x.size := by omega
    rw [ih (off + padTo a x.size) _ (by rw [e2]; exact Nat.dvd_add hoff (dvd_padTo _ _)) (by omega), e2]
    simp only [Option.bind_some]
    congr 2
    omega

theorem windows_append_two {R : Type} (l : List (Info R)) (p x : Info R) :
    windows (l ++ [p] ++ [x]) = windows (l ++ [p]) ++ [(p, x)] := by
  induction l with
  | nil => rfl
  | cons e l ih =>
    cases l with
    | nil => rfl
    | cons e' l =>
      simp only [windows, List.cons_append, List.tail_cons, List.zip_cons_cons] at ih ⊢
      rw [ih]

/-- The second pass moves every element to its new place. -/
theorem realignUpMove_eq [Inhabited β] {c : Cfg} {a b p : Nat} (ha : IsAlign c a) (hb : IsAlign c b) (hd : a ∣ b)
    (n : Nat) (xs : List (Val T β)) (hn : xs.length = n) (h : Heap β)
    (hwf : ∀ x ∈ xs, x.bytes.length = x.size)
    (hle : totalWidth (padTo b) xs ≤ c.isizeMax) (hsp : totalWidth (padTo b) xs ≤ h.span p)
    (hm : MemAt h.mem (padTo a) 0 xs) :
    ∃ mem', realignUpMove (T := T) c a b p (windows (infosFrom id (padTo b) 0 xs)).reverse
        (totalWidth (padTo b) xs - totalWidth (padTo a) xs) h = some { h with mem := mem' } ∧
      MemAt mem' (padTo b) 0 xs ∧ ∀ i, totalWidth (padTo b) xs ≤ i → mem' i = h.mem i := by
  induction n generalizing xs h with
  | zero =>
    obtain rfl := List.length_eq_zero_iff.mp hn
    exact ⟨h.mem, rfl, trivial, fun _ _ => rfl⟩
  | succ n ih =>
    rcases List.eq_nil_or_concat xs with rfl | ⟨ys, x, rfl⟩
    · simp at hn
    rw [List.concat_eq_append] at *
    rcases List.eq_nil_or_concat ys with rfl | ⟨zs, y, rfl⟩
    · -- a single element does not move
      refine ⟨h.mem, rfl, ?_, fun _ _ => rfl⟩
      exact ⟨hm.1, trivial⟩
    rw [List.concat_eq_append] at *
    have hlen : (zs ++ [y]).length = n := by simp at hn ⊢; omega
    -- abbreviations
    generalize hys : zs ++ [y] = ys at *
    have hxs : x ∈ ys ++ [x] := by simp
    have hbx : x.bytes.length = x.size := hwf x hxs
    have hwfy : ∀ z ∈ ys, z.bytes.length = z.size := fun z hz => hwf z (by simp [hz])
    rw [totalWidth_append] at hle hsp
    have e1 : totalWidth (padTo b) [x] = padTo b x.size := by simp
    have e1a : totalWidth (padTo a) [x] = padTo a x.size := by simp
    rw [e1] at hle hsp
    have hsz := le_padTo hb.pos x.size
    have hab := padTo_le_of_dvd_dvd ha.pos hb.pos hd x.size
    have htw := totalWidth_mono_align ha.pos hb.pos hd ys
    have hdb : b ∣ totalWidth (padTo b) ys := dvd_totalWidth ys
    have hda : a ∣ totalWidth (padTo b) ys := Nat.dvd_trans hd hdb
    rw [memAt_append] at hm
    -- the last window
    have hinf : infosFrom (R := T.Meta) id (padTo b) 0 (ys ++ [x]) =
        infosFrom id (padTo b) 0 ys ++ [⟨x.md, totalWidth (padTo b) ys + x.size⟩] := by
      rw [infosFrom_concat]; simp
    have hlast : infosFrom (R := T.Meta) id (padTo b) 0 ys =
        infosFrom id (padTo b) 0 zs ++ [⟨y.md, totalWidth (padTo b) zs + y.size⟩] := by
      rw [← hys, infosFrom_concat]; simp
    have hpad : padTo b (totalWidth (padTo b) zs + y.size) = totalWidth (padTo b) ys := by
      rw [padTo_add hb.pos (dvd_totalWidth zs), ← hys]; simp
    have hyle : totalWidth (padTo b) zs + y.size ≤ totalWidth (padTo b) ys := by
      rw [← hpad]; exact le_padTo hb.pos _
    rw [hinf, hlast, windows_append_two, ← hlast, List.reverse_append, List.reverse_singleton,
      List.singleton_append]
    simp only [realignUpMove, totalWidth_append, e1, e1a, Option.bind_eq_bind]
    rw [VSU.uncheckedPadTo_eq hb (by omega) (by rw [padTo_add hb.pos hdb]; omega), padTo_add hb.pos hdb,
      Option.bind_some,
      VSU.uncheckedPadTo_eq ha (by omega) (by rw [padTo_add ha.pos hda]; omega), padTo_add ha.pos hda,
      Option.bind_some, VSU.uncheckedSub_eq (by omega) (by omega), Option.bind_some,
      VSU.uncheckedSub_eq (by omega) (by omega), Option.bind_some,
      VSU.uncheckedPadTo_eq hb (by omega) (by rw [hpad]; omega), hpad, Option.bind_some,
      VSU.uncheckedSub_eq (by omega) (by omega), Option.bind_some,
      VSU.uncheckedSub_eq (by omega) (by omega), Option.bind_some,
      copy_eq (by omega) (by omega), Option.bind_some]
    have e2 : totalWidth (padTo b) ys + padTo b x.size - (totalWidth (padTo a) ys + padTo a x.size) -
        (totalWidth (padTo b) ys + padTo b x.size - (totalWidth (padTo b) ys + padTo a x.size)) =
        totalWidth (padTo b) ys - totalWidth (padTo a) ys := by omega
    have e3 : totalWidth (padTo b) ys - (totalWidth (padTo b) ys - totalWidth (padTo a) ys) =
        totalWidth (padTo a) ys := by omega
    have e4 : totalWidth (padTo b) ys + x.size - totalWidth (padTo b) ys = x.size := by omega
    rw [e2, e3, e4]
    obtain ⟨mem', hrun, hmem, hframe⟩ := ih ys hlen
      { h with mem := fun i => if totalWidth (padTo b) ys ≤ i ∧ i < totalWidth (padTo b) ys + x.size then
          h.mem (totalWidth (padTo a) ys + (i - totalWidth (padTo b) ys)) else h.mem i }
      hwfy (by omega) (by show _ ≤ h.span p; omega) (by
        refine MemAt.congr (fun z hz => by rw [hwfy z hz]; exact le_padTo ha.pos _) hm.1 ?_
        intro i hi
        simp only [Nat.zero_add]
        rw [if_neg (by omega)])
    refine ⟨mem', hrun, ?_, ?_⟩
    · rw [memAt_append]
      refine ⟨hmem, ?_, trivial⟩
      intro i hi
      rw [hframe _ (by omega)]
      simp only [Nat.zero_add]
      rw [if_pos (by omega), show totalWidth (padTo b) ys + i - totalWidth (padTo b) ys = i by omega]
      have := hm.2.1 i hi
      simpa using this
    · intro i hi
      rw [hframe i (by omega)]
      simp only
      rw [if_neg (by omega)]

end UVec
end Verif
