import Verif.Proofs.Shape

/-!
# Length and metadata, for every program: the three implementations
-/

namespace Verif
namespace UVec
set_option linter.unusedSectionVars false
variable {T : UTy} {β : Type} [Inhabited β] {c : Cfg} {env : Env (Val T β)}

/-- The metadata of the elements. -/
def tags (v : UVec T β) : List T.Meta := v.elems.map (·.rem)

section
variable {κ : Type} {f : UVec T β → κ} (hf : ∀ v v', v'.elems = v.elems → f v' = f v)
include hf

theorem memmove_same (p src dst n : Nat) : (memmove p src dst n : Exec (UVec T β) Unit).Keeps (Same f) (fun _ => True) := by
  intro v
  unfold memmove
  rw [Exec.get_bind]
  cases v.heap.copy p src dst n with
  | none => trivial
  | some h => exact ⟨hf _ _ rfl, trivial⟩

omit hf in
/-- Moving bytes does not panic. -/
theorem memmove_ends (p src dst n : Nat) (v : UVec T β) : (memmove p src dst n v).Ends (fun _ v' => v'.elems = v.elems) (fun _ => False) := by
  unfold memmove
  rw [Exec.get_bind]
  exact Res.Ends.orUb fun _ _ => rfl

theorem memwrite_same (p dst : Nat) (bs : List β) : (memwrite p dst bs : Exec (UVec T β) Unit).Keeps (Same f) (fun _ => True) := by
  intro v
  unfold memwrite
  rw [Exec.get_bind]
  cases v.heap.write p dst bs with
  | none => trivial
  | some h => exact ⟨hf _ _ rfl, trivial⟩

theorem dropInPlace_same (p off : Nat) (md : T.Meta) : (dropInPlace env p off md).Keeps (Same f) (fun _ => True) :=
  have hR := Same.pre f
  Exec.Keeps.seq hR (Exec.Keeps.get hR) fun _ => Exec.Keeps.seq hR (Exec.Keeps.orUb hR fun _ _ => trivial) fun _ =>
    Exec.Keeps.seq hR (Exec.Keeps.modify fun _ => hf _ _ rfl) fun _ => Exec.Keeps.ite (Exec.Keeps.panic hR) (Exec.Keeps.unit hR)

omit [Inhabited β] in
theorem tryReserve_same (n : Nat) : (tryReserve c env n).Keeps (Same f) (fun _ => True) := by
  intro v
  unfold tryReserve
  rw [Exec.get_bind]
  cases stdReserve c.infoMax v.elemsCap v.len n env.infoGrow with
  | error e => exact ⟨rfl, trivial⟩
  | ok cap => exact ⟨hf _ _ rfl, trivial⟩

theorem copyOut_same (p off n : Nat) (v : UVec T β) : (copyOut p off n v).Leaves (Same f v) := by
  unfold copyOut
  cases v.heap.read p off n with
  | none => trivial
  | some bs => exact rfl

end

omit [Inhabited β] in
theorem tags_same (v v' : UVec T β) (h : v'.elems = v.elems) : tags v' = tags v := by unfold tags; rw [h]

theorem realignUpOffsets_tags {a b : Nat} : ∀ {es es' : List (Info T.Meta)} {s fin : Nat}, realignUpOffsets c a b es s = some (es', fin) →
    es'.map (·.rem) = es.map (·.rem)
  | [], _, _, _, e => by cases e; rfl
  | x :: xs, _, _, _, e => by
    unfold realignUpOffsets at e
    simp only [Option.bind_eq_bind, Option.bind_eq_some_iff] at e
    obtain ⟨_, _, _, _, _, _, _, _, _, _, ⟨ys, fin⟩, e1, e2⟩ := e
    cases e2
    simp only [List.map_cons, realignUpOffsets_tags e1]

theorem realignUp_same (b : Nat) : (realignUp c b : Exec (UVec T β) Unit).Keeps (Same tags) (fun _ => True) := by
  intro v
  have hR := Same.pre (tags (T := T) (β := β))
  unfold realignUp
  rw [Exec.get_bind]
  refine Exec.Keeps.bindAt hR (Exec.Keeps.debugAssert hR _ _ v) fun _ t e => ?_
  have ht : t = v := by
    unfold Exec.debugAssert at e
    split at e <;> cases e
    rfl
  subst ht
  cases h1 : realignUpOffsets c t.align b t.elems 0 with
  | none => trivial
  | some p =>
    obtain ⟨es, fin⟩ := p
    rw [Exec.bind_ok (Exec.orUb_some _ t)]
    dsimp only
    cases h2 : realignUpMove c t.align b t.ptr (windows es).reverse fin t.heap with
    | none => trivial
    | some h' => exact ⟨realignUpOffsets_tags h1, trivial⟩

theorem realignDown_same (b : Nat) : (realignDown c b : Exec (UVec T β) Unit).Keeps (Same tags) (fun _ => True) := by
  have hR := Same.pre (tags (T := T) (β := β))
  exact Exec.Keeps.seq hR (Exec.Keeps.get hR) fun v => Exec.Keeps.seq hR (Exec.Keeps.debugAssert hR _ _) fun _ =>
    Exec.Keeps.seq hR (Exec.Keeps.orUb hR fun _ _ => trivial) fun h => Exec.Keeps.modify fun v => tags_same _ _ rfl

theorem setAfter_same {α : Type} {Q : α → Prop} {v : UVec T β} {w : UVec T β} {f : Unit → Exec (UVec T β) α} (hw : w.elems = v.elems)
    (h : ((f ()) w).Leaves (Same tags w) Q) : ((Exec.set w >>= f) v).Leaves (Same tags v) Q :=
  h.mono (fun _ e => Eq.trans e (tags_same _ _ hw)) (fun _ h => h)

theorem reserveCommit_same_keeps (n b cost : Nat) : (reserveCommit c env n b cost).Keeps (Same tags) (fun _ => True) := by
  have hR := Same.pre (tags (T := T) (β := β))
  unfold reserveCommit
  refine Exec.Keeps.seq hR (Exec.Keeps.get hR) fun v => Exec.Keeps.seq hR (Exec.Keeps.orUb hR fun _ _ => trivial) fun o => ?_
  cases o with
  | none => exact Exec.Keeps.pure hR trivial
  | some newCap =>
    dsimp only
    refine Exec.Keeps.ite (Exec.Keeps.ite ?_ ?_) (Exec.Keeps.pure hR trivial)
    · refine Exec.Keeps.seq hR (Exec.Keeps.orUb hR fun _ _ => trivial) fun l => Exec.Keeps.seq hR (Exec.Keeps.orUb hR fun _ _ => trivial) fun r => ?_
      cases r with
      | none => exact Exec.Keeps.pure hR trivial
      | some r =>
        obtain ⟨h, addr, granted⟩ := r
        dsimp only
        refine Exec.Keeps.seq hR (Exec.Keeps.orUb hR fun _ _ => trivial) fun cap => Exec.Keeps.seq hR (Exec.Keeps.modify fun v => tags_same _ _ rfl) fun _ => ?_
        refine Exec.Keeps.ite ?_ (Exec.Keeps.pure hR trivial)
        refine Exec.Keeps.ite ?_ ?_
        · exact Exec.Keeps.seq hR (realignUp_same b) fun _ => Exec.Keeps.seq hR (Exec.Keeps.modify fun v => tags_same _ _ rfl) fun _ => Exec.Keeps.pure hR trivial
        · exact Exec.Keeps.seq hR (Exec.Keeps.modify fun v => tags_same _ _ rfl) fun _ => Exec.Keeps.pure hR trivial
    · exact Exec.Keeps.seq hR (Exec.Keeps.modify fun v => tags_same _ _ rfl) fun _ => Exec.Keeps.pure hR trivial

theorem addBytes_same (n al : Nat) : (tryReserveAdditionalBytesAlign c env n al).Keeps (Same tags) (fun _ => True) := by
  have hR := Same.pre (tags (T := T) (β := β))
  unfold tryReserveAdditionalBytesAlign
  refine Exec.Keeps.seq hR (Exec.Keeps.get hR) fun v => Exec.Keeps.seq hR (Exec.Keeps.orUb hR fun _ _ => trivial) fun len => ?_
  refine Exec.Keeps.ite ?_ (Exec.Keeps.ite (Exec.Keeps.pure hR trivial) ?_)
  · refine Exec.Keeps.seq hR (Exec.Keeps.debugAssert hR _ _) fun _ => Exec.Keeps.seq hR (Exec.Keeps.orUb hR fun _ _ => trivial) fun o => ?_
    cases o with
    | none => exact Exec.Keeps.pure hR trivial
    | some r => exact Exec.Keeps.seq hR (Exec.Keeps.orUb hR fun _ _ => trivial) fun cost => reserveCommit_same_keeps _ _ _
  · exact Exec.Keeps.seq hR (Exec.Keeps.orUb hR fun _ _ => trivial) fun cost => reserveCommit_same_keeps _ _ _

theorem shrinkTo_same_keeps (n b al : Nat) : (shrinkTo c env n b al).Keeps (Same tags) (fun _ => True) := by
  have hR := Same.pre (tags (T := T) (β := β))
  have infos : (shrinkInfos env n).Keeps (Same (tags (T := T) (β := β))) (fun _ => True) := by
    intro v
    unfold shrinkInfos
    rw [Exec.get_bind]
    split
    · trivial
    · exact ⟨tags_same _ _ rfl, trivial⟩
  have realigner : ∀ a, (realigner c a).Keeps (Same (tags (T := T) (β := β))) (fun _ => True) := fun a =>
    Exec.Keeps.seq hR (Exec.Keeps.get hR) fun v => Exec.Keeps.seq hR (Exec.Keeps.modify fun v => tags_same _ _ rfl) fun _ =>
      Exec.Keeps.seq hR (realignUp_same _) fun _ => Exec.Keeps.modify fun v => tags_same _ _ rfl
  have release : ∀ l a, (releaseAll l a).Keeps (Same (tags (T := T) (β := β))) (fun _ => True) := by
    intro l a v
    unfold releaseAll
    rw [Exec.get_bind]
    split
    · cases v.heap.deallocate v.ptr l with
      | none => trivial
      | some h => exact ⟨tags_same _ _ rfl, trivial⟩
    · exact ⟨tags_same _ _ rfl, trivial⟩
  have block : ∀ l m a r, (shrinkBlock c env l m a r).Keeps (Same (tags (T := T) (β := β))) (fun _ => True) := by
    intro l m a r
    unfold shrinkBlock
    refine Exec.Keeps.seq hR (Exec.Keeps.orUb hR fun _ _ => trivial) fun l' => ?_
    intro v
    rw [Exec.get_bind]
    cases v.heap.shrink env v.ptr l l' with
    | none => trivial
    | some o =>
      rw [Exec.bind_ok (Exec.orUb_some _ v)]
      cases o with
      | none =>
        dsimp only
        refine Exec.Keeps.ite (p := r = true) ?_ (Exec.Keeps.pure hR trivial) v
        exact Exec.Keeps.seq hR (realigner a) fun _ => Exec.Keeps.pure hR trivial
      | some q =>
        obtain ⟨h, addr, granted⟩ := q
        dsimp only
        cases VSU.newSquishedTo c granted a with
        | none => trivial
        | some cap => exact ⟨tags_same _ _ rfl, trivial⟩
  have commit : ∀ m a r, (shrinkCommit c env m a r).Keeps (Same (tags (T := T) (β := β))) (fun _ => True) := by
    intro m a r
    unfold shrinkCommit
    refine Exec.Keeps.seq hR (Exec.Keeps.get hR) fun v => Exec.Keeps.seq hR (Exec.Keeps.orUb hR fun _ _ => trivial) fun nl =>
      Exec.Keeps.seq hR (Exec.Keeps.orUb hR fun _ _ => trivial) fun m' => Exec.Keeps.seq hR (Exec.Keeps.debugAssert hR _ _) fun _ => ?_
    refine Exec.Keeps.ite ?_ (Exec.Keeps.unit hR)
    refine Exec.Keeps.seq hR (Exec.Keeps.orUb hR fun _ _ => trivial) fun l => Exec.Keeps.ite ?_ ?_
    · exact Exec.Keeps.seq hR (block _ _ _ _) fun go => Exec.Keeps.ite (Exec.Keeps.modify fun v => tags_same _ _ rfl) (Exec.Keeps.unit hR)
    · exact Exec.Keeps.seq hR (release _ _) fun _ => Exec.Keeps.modify fun v => tags_same _ _ rfl
  unfold shrinkTo
  refine Exec.Keeps.seq hR infos fun _ => Exec.Keeps.seq hR (Exec.Keeps.get hR) fun v => Exec.Keeps.seq hR (Exec.Keeps.orUb hR fun _ _ => trivial) fun m =>
    Exec.Keeps.seq hR (Exec.Keeps.debugAssert hR _ _) fun _ => Exec.Keeps.ite ?_ (commit _ _ _)
  exact Exec.Keeps.seq hR (realignDown_same _) fun _ => commit _ _ _

theorem reserveForEmplace_same (l : Layout) : (reserveForEmplace c env l).Keeps (Same tags) (fun _ => True) := by
  have hR := Same.pre (tags (T := T) (β := β))
  unfold reserveForEmplace
  refine Exec.Keeps.seq hR (tryReserve_same tags_same 1) fun r => ?_
  cases r with
  | error e => exact unwrapReserve_keeps hR _
  | ok u => exact Exec.Keeps.seq hR (addBytes_same _ _) fun r => unwrapReserve_keeps hR r

omit [Inhabited β] in
theorem infoPush_tags (e : Info T.Meta) (v : UVec T β) {F : UVec T β → Prop} : (infoPush e v).Ends (fun _ v' => tags v' = tags v ++ [e.rem]) F := by
  unfold infoPush
  rw [Exec.get_bind]
  refine Res.Ends.require fun _ => ?_
  show tags _ = _
  simp [tags]

omit [Inhabited β] in
theorem infoInsert_tags (i : Nat) (e : Info T.Meta) (v : UVec T β) {F : UVec T β → Prop} :
    (infoInsert i e v).Ends (fun _ v' => tags v' = (tags v).take i ++ e.rem :: (tags v).drop i) F := by
  unfold infoInsert
  rw [Exec.get_bind]
  refine Res.Ends.require fun _ => ?_
  show tags _ = _
  simp [tags]

theorem bumpInfos_tags {n : Nat} : ∀ {es es' : List (Info T.Meta)}, bumpInfos c n es = some es' → es'.map (·.rem) = es.map (·.rem)
  | [], _, e => by cases e; rfl
  | x :: xs, _, e => by
    unfold bumpInfos at e
    simp only [Option.bind_eq_bind, Option.bind_eq_some_iff] at e
    obtain ⟨_, _, ys, e1, e2⟩ := e
    cases e2
    simp only [List.map_cons, bumpInfos_tags e1]

theorem unbumpInfos_tags {n : Nat} : ∀ {es es' : List (Info T.Meta)}, unbumpInfos c n es = some es' → es'.map (·.rem) = es.map (·.rem)
  | [], _, e => by cases e; rfl
  | x :: xs, _, e => by
    unfold unbumpInfos at e
    simp only [Option.bind_eq_bind, Option.bind_eq_some_iff] at e
    obtain ⟨_, _, ys, e1, e2⟩ := e
    cases e2
    simp only [List.map_cons, unbumpInfos_tags e1]

omit [Inhabited β] in
theorem adjustFrom_tags (i : Nat) {f : List (Info T.Meta) → Option (List (Info T.Meta))}
    (hf : ∀ es es', f es = some es' → es'.map (·.rem) = es.map (·.rem)) (v : UVec T β) :
    (adjustFrom i f v).Ends (fun _ v' => tags v' = tags v) (fun _ => False) := by
  unfold adjustFrom
  rw [Exec.get_bind]
  refine Res.Ends.require fun _ => Res.Ends.orUb fun es e => ?_
  show List.map _ _ = List.map _ _
  dsimp only
  rw [List.map_append, hf _ _ e, ← List.map_append, List.take_append_drop]

theorem recording_lawful (c : Cfg) : (recording T β).Lawful elems (unalignedM c T) where
  len v := (List.length_map ..).symm
  same v v' h := tags_same v v' h
  reserve a := {
    alignNew := by
      intro al al' h
      have h : ValidAlign.new al = some al' := h
      unfold ValidAlign.new at h
      split at h
      · cases h; rfl
      · cases h
    tryReserve := fun env n => tryReserve_same tags_same n
    tryReserveExact := fun env n => tryReserve_same tags_same n
    addBytes := fun env n al _ => addBytes_same n al }
  shrink env n b a := shrinkTo_same_keeps n b a
  push x v := by
    show (pushUnchecked c x v).Ends _ _
    unfold pushUnchecked
    rw [Exec.get_bind]
    refine Res.Ends.debugAssert (Res.Ends.orUb fun start _ => Res.Ends.debugAssert (Res.Ends.debugAssert ?_ fun _ => rfl) fun _ => rfl) fun _ => rfl
    refine Res.Ends.keep (memwrite_same tags_same _ _ _) (fun _ t e _ => Res.Ends.orUb fun e' _ => ?_) (fun t e => e)
    have e : tags t = tags v := e
    exact (infoPush_tags _ t).mono (fun _ v' k => by rw [e] at k; exact k) (fun _ k => k)
  insert i x v := by
    show (insertUnchecked c i x v).Ends _ _
    unfold insertUnchecked
    rw [Exec.get_bind]
    refine Res.Ends.debugAssert (Res.Ends.debugAssert (Res.Ends.orUb fun sz _ => Res.Ends.orUb fun al _ => Res.Ends.debugAssert
      (Res.Ends.debugAssert (Res.Ends.orUb fun start _ => Res.Ends.orUb fun mv _ => Res.Ends.require fun _ => ?_) fun _ => rfl) fun _ => rfl) fun _ => rfl)
      fun _ => rfl
    refine Res.Ends.keep (memmove_same tags_same _ _ _ _) (fun _ t e _ => ?_) (fun t e => e)
    refine Res.Ends.keep (memwrite_same tags_same _ _ _) (fun _ t1 e1 _ => ?_) (fun t1 e1 => Eq.trans e1 e)
    refine Res.Ends.bind ((adjustFrom_tags i (fun _ _ => bumpInfos_tags) t1).mono (fun _ t2 e2 => Res.Ends.orUb fun e' _ => ?_) (fun _ k => k.elim))
    have e : tags t2 = tags v := Eq.trans e2 (Eq.trans e1 e)
    exact (infoInsert_tags i _ t2).mono (fun _ v' k => by rw [e] at k; exact k) (fun _ k => k)
  pushWith env l md v := by
    show (pushWith c env l md v).Ends _ _
    unfold pushWith
    refine Res.Ends.orUb fun sz _ => Res.Ends.keep (reserveForEmplace_same l) (fun _ v1 e _ => ?_) (fun _ e => e)
    rw [Exec.get_bind]
    refine Res.Ends.orUb fun start _ => Res.Ends.require fun _ => ⟨e, _, _, _, rfl, ?_, ?_, ?_⟩
    · have hR := Same.pre (elems (T := T) (β := β))
      exact fun bs => Exec.Keeps.seq hR (Exec.Keeps.require hR _) fun _ => memwrite_same (fun _ _ h => h) _ _ _
    · exact Exec.Keeps.unit (Same.pre _)
    · intro v2 e2
      have e : tags v2 = tags v := Eq.trans (tags_same _ _ e2) e
      refine Res.Ends.orUb fun e' _ => (infoPush_tags _ v2).mono (fun _ v' k => by rw [e] at k; exact k) (fun _ k => k)
  insertWith env i l md v := by
    show (insertWithUnchecked c env i l md v).Ends _ _
    unfold insertWithUnchecked
    refine Res.Ends.orUb fun sz _ => Res.Ends.keep (reserveForEmplace_same l) (fun _ v1 e _ => ?_) (fun _ e => e)
    rw [Exec.get_bind]
    refine Res.Ends.orUb fun asz _ => Res.Ends.orUb fun start _ => Res.Ends.require fun _ => Res.Ends.orUb fun sh _ => Res.Ends.require fun _ => ?_
    refine Res.Ends.keep (memmove_same tags_same _ _ _ _) (fun _ t e1 _ => ⟨Eq.trans e1 e, _, _, _, rfl, ?_, ?_, ?_⟩) (fun t e1 => Eq.trans e1 e)
    · have hR := Same.pre (elems (T := T) (β := β))
      exact fun bs => Exec.Keeps.seq hR (Exec.Keeps.require hR _) fun _ => memwrite_same (fun _ _ h => h) _ _ _
    · exact memmove_same (fun _ _ h => h) _ _ _ _
    · intro v2 e2
      have e : tags v2 = tags v := Eq.trans (tags_same _ _ e2) (Eq.trans e1 e)
      refine Res.Ends.bind ((adjustFrom_tags i (fun _ _ => bumpInfos_tags) v2).mono (fun _ t2 e3 => Res.Ends.orUb fun e' _ => ?_) (fun _ k => k.elim))
      have e : tags t2 = tags v := Eq.trans e3 e
      exact (infoInsert_tags i _ t2).mono (fun _ v' k => by rw [e] at k; exact k) (fun _ k => k)
  pop env v hne := by
    show (popIntoUnchecked c env v).Ends _ _
    unfold popIntoUnchecked
    rw [Exec.get_bind]
    refine Res.Ends.debugAssert (Res.Ends.orUb fun last hl => ?_) (fun h => hne ?_)
    · rw [Exec.modify_bind, Exec.get_bind]
      refine Res.Ends.orUb fun start _ => Res.Ends.orUb fun sz _ => Res.Ends.require fun _ => Res.Ends.orUb fun r _ => Res.Ends.orUb fun l _ => ?_
      have hd : tags { v with elems := v.elems.dropLast } = (tags v).dropLast := List.map_dropLast
      refine ⟨hd, ⟨last.rem, ?_, fun bs => rfl⟩, ⟨fun s => copyOut_same (fun _ _ h => h) _ _ _ _, dropInPlace_same (fun _ _ h => h) _ _ _, ?_⟩⟩
      · show (List.map _ _).getLast? = _
        rw [List.getLast?_map, hl]; rfl
      · intro v2 e2
        exact Eq.trans (tags_same _ _ e2) hd
    · show List.map _ _ = _
      rw [Decidable.not_not.1 h]; rfl
  remove env i v hi := by
    show (removeIntoUnchecked c env i v).Ends _ _
    have hi : i < (v.elems.map (·.rem)).length := hi
    rw [List.length_map] at hi
    unfold removeIntoUnchecked
    rw [Exec.get_bind]
    refine Res.Ends.debugAssert (Res.Ends.orUb fun info hinfo => Res.Ends.orUb fun start _ => Res.Ends.orUb fun sz _ => Res.Ends.orUb fun asz _ =>
      Res.Ends.require fun _ => Res.Ends.orUb fun r _ => Res.Ends.orUb fun l _ => ?_) (fun h => h hi)
    refine ⟨rfl, ⟨info.rem, ?_, fun bs => rfl⟩, ⟨fun s => copyOut_same (fun _ _ h => h) _ _ _ _, dropInPlace_same (fun _ _ h => h) _ _ _, ?_⟩⟩
    · show (List.map _ _)[i]? = _
      rw [List.getElem?_map, hinfo]; rfl
    · intro v2 e2
      dsimp only
      rw [Exec.get_bind]
      refine Res.Ends.assert (fun _ => ?_) (fun _ => tags_same _ _ e2)
      refine Res.Ends.bind ?_
      rw [Exec.set_apply]
      dsimp only [Res.Ends]
      have he : tags { v2 with elems := v2.elems.eraseIdx i } = (tags v).eraseIdx i := by
        show List.map _ _ = _
        dsimp only
        rw [e2]
        unfold tags
        simp only [List.eraseIdx_eq_take_drop_succ, List.map_append, List.map_take, List.map_drop]
      refine Res.Ends.bind ((adjustFrom_tags i (fun _ _ => unbumpInfos_tags) _).mono (fun _ t e => ?_) fun _ k => k.elim)
      rw [Exec.get_bind]
      refine Res.Ends.orUb fun mv _ => Res.Ends.require fun _ => (memmove_ends _ _ _ _ t).mono (fun _ v' e' => ?_) fun _ k => k.elim
      exact Eq.trans (tags_same _ _ e') (Eq.trans e he)
  get v i r h := by
    have h : getUnchecked c v i = some r := h
    unfold getUnchecked at h
    simp only [Option.bind_eq_bind, Option.bind_eq_some_iff] at h
    obtain ⟨start, _, info, hinfo, _, _, hr⟩ := h
    refine ⟨info.rem, ?_, ?_⟩
    · show (List.map _ _)[i]? = _
      rw [List.getElem?_map, hinfo]; rfl
    · show r.md = info.rem
      unfold mkRef at hr
      split at hr
      · cases hr; rfl
      · cases hr
  note x v := rfl
  store r bs v := by
    show ((Exec.get >>= _) v).Ends _ _
    rw [Exec.get_bind]
    exact Res.Ends.orUb fun h _ => rfl

end UVec

/-! ## Statically aligned elements -/
namespace AVec
set_option linter.unusedSectionVars false
variable {A : ATy} {β : Type} [Inhabited β] {c : Cfg} {env : Env (Val A.ty β)}

/-- The remainders and the sizes of the elements. -/
def marks (v : AVec A β) : List (A.R × Int) := entriesFrom 0 v.elems

/-- The end of the last record. -/
def endFrom {R : Type} (p : Int) (es : List (Info R)) : Int := match es.getLast? with
  | some e => e.endOff
  | none => p

theorem endFrom_cons {R : Type} (p : Int) (e : Info R) (es : List (Info R)) : endFrom p (e :: es) = endFrom e.endOff es := by
  cases es with
  | nil => rfl
  | cons x xs => simp [endFrom, List.getLast?_cons]

theorem entriesFrom_append {R : Type} : ∀ (l l' : List (Info R)) (p : Int), entriesFrom p (l ++ l') = entriesFrom p l ++ entriesFrom (endFrom p l) l'
  | [], _, _ => rfl
  | e :: es, l', p => by
    rw [List.cons_append, entriesFrom, entriesFrom, entriesFrom_append es l', endFrom_cons, List.cons_append]

theorem entriesFrom_length {R : Type} : ∀ (l : List (Info R)) (p : Int), (entriesFrom p l).length = l.length
  | [], _ => rfl
  | e :: es, p => by rw [entriesFrom, List.length_cons, entriesFrom_length es, List.length_cons]

theorem entriesFrom_take {R : Type} : ∀ (i : Nat) (l : List (Info R)) (p : Int), (entriesFrom p l).take i = entriesFrom p (l.take i)
  | 0, _, _ => by simp [entriesFrom]
  | i + 1, [], _ => rfl
  | i + 1, e :: es, p => by rw [entriesFrom, List.take_succ_cons, entriesFrom_take i es, List.take_succ_cons, entriesFrom]

theorem entriesFrom_drop {R : Type} (i : Nat) (l : List (Info R)) (p : Int) (hi : i ≤ l.length) :
    (entriesFrom p l).drop i = entriesFrom (endFrom p (l.take i)) (l.drop i) := by
  have h := entriesFrom_append (l.take i) (l.drop i) p
  rw [List.take_append_drop] at h
  rw [h, List.drop_append_of_le_length (by rw [entriesFrom_length, List.length_take]; omega), List.drop_eq_nil_of_le (by rw [entriesFrom_length, List.length_take]; omega)]
  rfl

theorem startOffset_end {v : AVec A β} {i s : Nat} (h : v.startOffset i = some s) : (s : Int) = endFrom 0 (v.elems.take i) := by
  unfold startOffset at h
  cases i with
  | zero => cases h; rfl
  | succ j =>
    dsimp only at h
    cases hj : v.elems[j]? with
    | none => rw [hj] at h; cases h
    | some e =>
      rw [hj] at h
      cases h
      unfold endFrom
      rw [List.take_succ, hj]
      simp

theorem byteLen_end (v : AVec A β) : (v.byteLen : Int) = endFrom 0 v.elems := by
  unfold byteLen lastEnd endFrom
  cases v.elems.getLast? <;> rfl

theorem uncheckedAdd_val {a x y o : Nat} (h : VS.uncheckedAdd c a x y = some o) : o = x + y := by
  unfold VS.uncheckedAdd Verif.uncheckedAdd VS.newUnchecked at h
  simp only [Option.bind_eq_bind, Option.bind_eq_some_iff] at h
  obtain ⟨s, h1, h2⟩ := h
  split at h1 <;> cases h1
  split at h2 <;> cases h2
  rfl

theorem uncheckedSub_val {a x y o : Nat} (h : VS.uncheckedSub c a x y = some o) : y ≤ x ∧ o = x - y := by
  unfold VS.uncheckedSub Verif.uncheckedSub VS.newUnchecked at h
  simp only [Option.bind_eq_bind, Option.bind_eq_some_iff] at h
  obtain ⟨s, h1, h2⟩ := h
  split at h1 <;> cases h1
  split at h2 <;> cases h2
  exact ⟨by assumption, rfl⟩

theorem bumpInfos_entries {R : Type} {a n : Nat} : ∀ {es es' : List (Info R)} (p : Int), bumpInfos c a n es = some es' →
    entriesFrom (p + n) es' = entriesFrom p es
  | [], _, _, e => by cases e; rfl
  | x :: xs, _, p, e => by
    unfold bumpInfos at e
    simp only [Option.bind_eq_bind, Option.bind_eq_some_iff] at e
    obtain ⟨o, e0, ys, e1, e2⟩ := e
    cases e2
    have ho : (o : Int) = x.endOff + n := by
      have := uncheckedAdd_val e0
      omega
    rw [entriesFrom, entriesFrom, ho, bumpInfos_entries _ e1]
    congr 2
    omega

theorem unbumpInfos_entries {R : Type} {a n : Nat} : ∀ {es es' : List (Info R)} (p : Int), unbumpInfos c a n es = some es' →
    entriesFrom (p - n) es' = entriesFrom p es
  | [], _, _, e => by cases e; rfl
  | x :: xs, _, p, e => by
    unfold unbumpInfos at e
    simp only [Option.bind_eq_bind, Option.bind_eq_some_iff] at e
    obtain ⟨o, e0, ys, e1, e2⟩ := e
    cases e2
    have ho : (o : Int) = x.endOff - n := by
      have := uncheckedSub_val e0
      omega
    rw [entriesFrom, entriesFrom, ho, unbumpInfos_entries _ e1]
    congr 2
    omega

section
variable {κ : Type} {f : AVec A β → κ} (hf : ∀ v v', v'.elems = v.elems → f v' = f v)
include hf

theorem memmove_same (p src dst n : Nat) : (memmove p src dst n : Exec (AVec A β) Unit).Keeps (Same f) (fun _ => True) := by
  intro v
  unfold memmove
  rw [Exec.get_bind]
  cases v.heap.copy p src dst n with
  | none => trivial
  | some h => exact ⟨hf _ _ rfl, trivial⟩

omit hf in
/-- Moving bytes does not panic. -/
theorem memmove_ends (p src dst n : Nat) (v : AVec A β) : (memmove p src dst n v).Ends (fun _ v' => v'.elems = v.elems) (fun _ => False) := by
  unfold memmove
  rw [Exec.get_bind]
  exact Res.Ends.orUb fun _ _ => rfl

theorem memwrite_same (p dst : Nat) (bs : List β) : (memwrite p dst bs : Exec (AVec A β) Unit).Keeps (Same f) (fun _ => True) := by
  intro v
  unfold memwrite
  rw [Exec.get_bind]
  cases v.heap.write p dst bs with
  | none => trivial
  | some h => exact ⟨hf _ _ rfl, trivial⟩

theorem dropInPlace_same (p off : Nat) (md : A.ty.Meta) : (dropInPlace env p off md).Keeps (Same f) (fun _ => True) :=
  have hR := Same.pre f
  Exec.Keeps.seq hR (Exec.Keeps.get hR) fun _ => Exec.Keeps.seq hR (Exec.Keeps.orUb hR fun _ _ => trivial) fun _ =>
    Exec.Keeps.seq hR (Exec.Keeps.modify fun _ => hf _ _ rfl) fun _ => Exec.Keeps.ite (Exec.Keeps.panic hR) (Exec.Keeps.unit hR)

theorem tryReserve_same (n : Nat) : (tryReserve c env n).Keeps (Same f) (fun _ => True) := by
  intro v
  unfold tryReserve
  rw [Exec.get_bind]
  cases stdReserve c.infoMax v.elemsCap v.len n env.infoGrow with
  | error e => exact ⟨rfl, trivial⟩
  | ok cap => exact ⟨hf _ _ rfl, trivial⟩

omit hf in
theorem copyOut_same (p off n : Nat) (v : AVec A β) : (copyOut p off n v).Leaves (Same f v) := by
  unfold copyOut
  cases v.heap.read p off n with
  | none => trivial
  | some bs => exact rfl

theorem addBytes_same (n : Nat) : (tryReserveAdditionalBytes c env n).Keeps (Same f) (fun _ => True) := by
  have hR := Same.pre f
  unfold tryReserveAdditionalBytes
  refine Exec.Keeps.seq hR (Exec.Keeps.get hR) fun v => Exec.Keeps.ite ?_ (Exec.Keeps.pure hR trivial)
  cases (checkedAdd c v.byteCap n).bind (VS.new c A.ALIGN) with
  | none => exact Exec.Keeps.pure hR trivial
  | some newCap =>
    refine Exec.Keeps.seq hR (Exec.Keeps.orUb hR fun _ _ => trivial) fun l => Exec.Keeps.seq hR (Exec.Keeps.orUb hR fun _ _ => trivial) fun r => ?_
    cases r with
    | none => exact Exec.Keeps.pure hR trivial
    | some r => exact Exec.Keeps.seq hR (Exec.Keeps.modify fun v => hf _ _ rfl) fun _ => Exec.Keeps.pure hR trivial

theorem shrinkTo_same_keeps (n b : Nat) : (shrinkTo c env n b).Keeps (Same f) (fun _ => True) := by
  have hR := Same.pre f
  have infos : (shrinkInfos env n).Keeps (Same f) (fun _ => True) := by
    intro v
    unfold shrinkInfos
    rw [Exec.get_bind]
    split
    · trivial
    · exact ⟨hf _ _ rfl, trivial⟩
  unfold shrinkTo
  refine Exec.Keeps.seq hR infos fun _ => ?_
  intro v
  rw [Exec.get_bind]
  split
  · cases VS.newUnchecked c A.ALIGN (max v.byteLen b) with
    | none => trivial
    | some cap =>
      rw [Exec.bind_ok (Exec.orUb_some _ v)]
      cases layoutUnchecked c v.byteCap A.ALIGN with
      | none => trivial
      | some l =>
        rw [Exec.bind_ok (Exec.orUb_some _ v)]
        by_cases hc : cap = 0
        · rw [if_pos hc]
          cases v.heap.deallocate v.ptr l with
          | none => trivial
          | some h => exact ⟨hf _ _ rfl, trivial⟩
        · rw [if_neg hc]
          cases layoutUnchecked c cap A.ALIGN with
          | none => trivial
          | some l' =>
            rw [Exec.bind_ok (Exec.orUb_some _ v)]
            cases v.heap.shrink env v.ptr l l' with
            | none => trivial
            | some o =>
              rw [Exec.bind_ok (Exec.orUb_some _ v)]
              cases o with
              | none => exact ⟨rfl, trivial⟩
              | some r => exact ⟨hf _ _ rfl, trivial⟩
  · exact ⟨rfl, trivial⟩

theorem reserveForEmplace_same (l : Layout) : (reserveForEmplace c env l).Keeps (Same f) (fun _ => True) := by
  have hR := Same.pre f
  unfold reserveForEmplace
  refine Exec.Keeps.seq hR (tryReserve_same hf 1) fun r => ?_
  cases r with
  | error e => exact unwrapReserve_keeps hR _
  | ok u => exact Exec.Keeps.seq hR (addBytes_same hf _) fun r => unwrapReserve_keeps hR r

end

theorem marks_same (v v' : AVec A β) (h : v'.elems = v.elems) : marks v' = marks v := by unfold marks; rw [h]

/-- A record for an element of size `n` at the end. -/
theorem pushAt_marks {v : AVec A β} {n s : Nat} {r : A.R} (hs : s = v.byteLen) {F : AVec A β → Prop} :
    ((Exec.orUb (VS.uncheckedAdd c A.ALIGN s n) >>= fun e => infoPush ⟨r, e⟩) v).Ends (fun _ v' => marks v' = marks v ++ [(r, (n : Int))]) F := by
  refine Res.Ends.orUb fun e he => ?_
  unfold infoPush
  rw [Exec.get_bind]
  refine Res.Ends.require fun _ => ?_
  show entriesFrom 0 (v.elems ++ [⟨r, e⟩]) = entriesFrom 0 v.elems ++ _
  rw [entriesFrom_append]
  have h1 := uncheckedAdd_val he
  have h2 := byteLen_end v
  rw [← h2]
  simp only [entriesFrom]
  congr 3
  omega

/-- A record for an element of size `n` before the `i`-th. -/
theorem insertAt_marks {v : AVec A β} {i n s : Nat} {r : A.R} (hs : v.startOffset i = some s) {F : AVec A β → Prop} :
    ((adjustFrom i (bumpInfos c A.ALIGN n) >>= fun _ => Exec.orUb (VS.uncheckedAdd c A.ALIGN s n) >>= fun e => infoInsert i ⟨r, e⟩) v).Ends
      (fun _ v' => marks v' = (marks v).take i ++ (r, (n : Int)) :: (marks v).drop i) F := by
  refine Res.Ends.bind ?_
  unfold adjustFrom
  rw [Exec.get_bind]
  refine Res.Ends.require fun hi => Res.Ends.orUb fun es hes => ?_
  rw [Exec.set_apply]
  dsimp only [Res.Ends]
  refine Res.Ends.orUb fun e he => ?_
  unfold infoInsert
  rw [Exec.get_bind]
  refine Res.Ends.require fun _ => ?_
  have ht : (v.elems.take i ++ es).take i = v.elems.take i := by
    rw [List.take_append_of_le_length (by rw [List.length_take]; omega), List.take_take, Nat.min_self]
  have hd : (v.elems.take i ++ es).drop i = es := by
    rw [List.drop_append_of_le_length (by rw [List.length_take]; omega), List.drop_eq_nil_of_le (by rw [List.length_take]; omega)]
    rfl
  show entriesFrom 0 ((v.elems.take i ++ es).take i ++ ⟨r, e⟩ :: (v.elems.take i ++ es).drop i) = (entriesFrom 0 v.elems).take i ++ _ :: (entriesFrom 0 v.elems).drop i
  rw [ht, hd, entriesFrom_append, entriesFrom_take, entriesFrom_drop i _ _ hi]
  have h1 := uncheckedAdd_val he
  have h2 := startOffset_end hs
  rw [← h2]
  simp only [entriesFrom]
  have h3 : (e : Int) = s + n := by omega
  rw [h3, bumpInfos_entries _ hes]
  congr 3
  omega

theorem recording_lawful (c : Cfg) (A : ATy) : (recording A β).Lawful elems (alignedM c A) where
  len v := (entriesFrom_length v.elems 0).symm
  same v v' h := marks_same v v' h
  reserve a := {
    alignNew := fun h => by injection h with h; exact h.symm
    tryReserve := fun env n => tryReserve_same marks_same n
    tryReserveExact := fun env n => tryReserve_same marks_same n
    addBytes := fun env n al _ => addBytes_same marks_same n }
  shrink env n b a := shrinkTo_same_keeps marks_same n b
  push x v := by
    show (pushUnchecked c x v).Ends _ _
    unfold pushUnchecked
    rw [Exec.get_bind]
    refine Res.Ends.orUb fun sz hsz => Res.Ends.debugAssert (Res.Ends.debugAssert ?_ fun _ => rfl) fun _ => rfl
    have hsz : sz = x.size := by
      unfold VS.newUnchecked at hsz
      split at hsz <;> cases hsz
      rfl
    subst hsz
    refine Res.Ends.keep (memwrite_same (f := elems) (fun _ _ h => h) _ _ _) (fun _ t e _ => ?_) (fun t e => marks_same _ _ e)
    have e' : marks t = marks v := marks_same _ _ e
    have e2 : v.byteLen = t.byteLen := by unfold byteLen; rw [show t.elems = v.elems from e]
    exact (pushAt_marks e2).mono (fun _ v' k => by rw [e'] at k; exact k) (fun _ k => k)
  insert i x v := by
    show (insertUnchecked c i x v).Ends _ _
    unfold insertUnchecked
    rw [Exec.get_bind]
    refine Res.Ends.orUb fun sz hsz => Res.Ends.debugAssert (Res.Ends.debugAssert (Res.Ends.orUb fun start hst => Res.Ends.orUb fun mv _ =>
      Res.Ends.require fun _ => ?_) fun _ => rfl) fun _ => rfl
    have hsz : sz = x.size := by
      unfold VS.newUnchecked at hsz
      split at hsz <;> cases hsz
      rfl
    subst hsz
    refine Res.Ends.keep (memmove_same (f := elems) (fun _ _ h => h) _ _ _ _) (fun _ t e _ => ?_) (fun t e => marks_same _ _ e)
    refine Res.Ends.keep (memwrite_same (f := elems) (fun _ _ h => h) _ _ _) (fun _ t1 e1 _ => ?_) (fun t1 e1 => marks_same _ _ (Eq.trans e1 e))
    have e : t1.elems = v.elems := Eq.trans e1 e
    have e' : marks t1 = marks v := marks_same _ _ e
    have e2 : t1.startOffset i = some start := by unfold startOffset at hst ⊢; rw [e]; exact hst
    exact (insertAt_marks e2).mono (fun _ v' k => by rw [e'] at k; exact k) (fun _ k => k)
  pushWith env l md v := by
    show (pushWith c env l md v).Ends _ _
    unfold pushWith
    refine Res.Ends.orUb fun sz hsz => Res.Ends.keep (reserveForEmplace_same marks_same l) (fun _ v1 e _ => ?_) (fun _ e => e)
    have hsz : sz = l.size := by
      unfold VS.newUnchecked at hsz
      split at hsz <;> cases hsz
      rfl
    subst hsz
    rw [Exec.get_bind]
    refine Res.Ends.require fun _ => ⟨e, _, _, _, rfl, ?_, ?_, ?_⟩
    · have hR := Same.pre (elems (A := A) (β := β))
      exact fun bs => Exec.Keeps.seq hR (Exec.Keeps.require hR _) fun _ => memwrite_same (fun _ _ h => h) _ _ _
    · exact Exec.Keeps.unit (Same.pre _)
    · intro v2 e2
      have e' : marks v2 = marks v := Eq.trans (marks_same _ _ e2) e
      have e3 : v1.byteLen = v2.byteLen := by unfold byteLen; rw [e2]
      exact (pushAt_marks e3).mono (fun _ v' k => by rw [e'] at k; exact k) (fun _ k => k)
  insertWith env i l md v := by
    show (insertWithUnchecked c env i l md v).Ends _ _
    unfold insertWithUnchecked
    refine Res.Ends.orUb fun sz hsz => Res.Ends.keep (reserveForEmplace_same marks_same l) (fun _ v1 e _ => ?_) (fun _ e => e)
    have hsz : sz = l.size := by
      unfold VS.newUnchecked at hsz
      split at hsz <;> cases hsz
      rfl
    subst hsz
    rw [Exec.get_bind]
    refine Res.Ends.orUb fun start hst => Res.Ends.require fun _ => Res.Ends.orUb fun sh _ => Res.Ends.require fun _ => ?_
    refine Res.Ends.keep (memmove_same (f := elems) (fun _ _ h => h) _ _ _ _) (fun _ t e1 _ => ⟨Eq.trans (marks_same _ _ e1) e, _, _, _, rfl, ?_, ?_, ?_⟩)
      (fun t e1 => Eq.trans (marks_same _ _ e1) e)
    · have hR := Same.pre (elems (A := A) (β := β))
      exact fun bs => Exec.Keeps.seq hR (Exec.Keeps.require hR _) fun _ => memwrite_same (fun _ _ h => h) _ _ _
    · exact memmove_same (fun _ _ h => h) _ _ _ _
    · intro v2 e2
      have e3 : v2.elems = v1.elems := Eq.trans e2 e1
      have e' : marks v2 = marks v := Eq.trans (marks_same _ _ e3) e
      have e4 : v2.startOffset i = some start := by unfold startOffset at hst ⊢; rw [e3]; exact hst
      exact (insertAt_marks e4).mono (fun _ v' k => by rw [e'] at k; exact k) (fun _ k => k)
  pop env v hne := by
    show (popIntoUnchecked c env v).Ends _ _
    unfold popIntoUnchecked
    rw [Exec.get_bind]
    refine Res.Ends.debugAssert (Res.Ends.orUb fun last hl => ?_) (fun h => hne ?_)
    · rw [Exec.modify_bind, Exec.get_bind]
      refine Res.Ends.orUb fun sz hsz => Res.Ends.require fun _ => Res.Ends.orUb fun l _ => ?_
      have hl' : v.elems = v.elems.dropLast ++ [last] := by
        obtain ⟨ys, hy⟩ := List.getLast?_eq_some_iff.1 hl
        rw [hy, List.dropLast_concat]
      have hm : marks v = entriesFrom 0 v.elems.dropLast ++ [(last.rem, (sz : Int))] := by
        unfold marks
        conv => lhs; rw [hl']
        rw [entriesFrom_append]
        have h1 := byteLen_end (A := A) (β := β) { v with elems := v.elems.dropLast }
        have h2 := uncheckedSub_val hsz
        dsimp only at h1
        rw [← h1]
        simp only [entriesFrom]
        congr 3
        omega
      have hd : marks { v with elems := v.elems.dropLast } = (marks v).dropLast := by
        rw [hm, List.dropLast_concat]; rfl
      refine ⟨hd, ⟨(last.rem, (sz : Int)), ?_, fun bs => rfl⟩, ⟨fun s => copyOut_same _ _ _ _, dropInPlace_same (fun _ _ h => h) _ _ _, ?_⟩⟩
      · show (marks v).getLast? = _
        rw [hm, List.getLast?_concat]
      · intro v2 e2
        exact Eq.trans (marks_same _ _ e2) hd
    · show entriesFrom 0 _ = _
      rw [Decidable.not_not.1 h]; rfl
  remove env i v hi := by
    show (removeIntoUnchecked c env i v).Ends _ _
    have hi : i < (entriesFrom 0 v.elems).length := hi
    rw [entriesFrom_length] at hi
    unfold removeIntoUnchecked
    rw [Exec.get_bind]
    refine Res.Ends.debugAssert (Res.Ends.orUb fun info hinfo => Res.Ends.orUb fun start hst => Res.Ends.orUb fun sz hsz =>
      Res.Ends.require fun _ => Res.Ends.orUb fun l _ => ?_) (fun h => h hi)
    have h1 := startOffset_end hst
    have h2 := uncheckedSub_val hsz
    have hdrop : v.elems.drop i = info :: v.elems.drop (i + 1) := by
      rw [List.drop_eq_getElem_cons hi]
      congr 1
      rw [List.getElem?_eq_getElem hi] at hinfo
      exact Option.some.inj hinfo
    have hdm : (marks v).drop i = (info.rem, (sz : Int)) :: entriesFrom info.endOff (v.elems.drop (i + 1)) := by
      unfold marks
      rw [entriesFrom_drop i _ _ (Nat.le_of_lt hi), hdrop, ← h1, entriesFrom]
      congr 2
      omega
    refine ⟨rfl, ⟨(info.rem, (sz : Int)), ?_, fun bs => rfl⟩, ⟨fun s => copyOut_same _ _ _ _, dropInPlace_same (fun _ _ h => h) _ _ _, ?_⟩⟩
    · show (marks v)[i]? = _
      have := List.getElem?_drop (xs := marks v) (i := i) (j := 0)
      rw [hdm] at this
      exact this.symm
    · intro v2 e2
      dsimp only
      rw [Exec.get_bind]
      refine Res.Ends.assert (fun _ => ?_) (fun _ => marks_same _ _ e2)
      refine Res.Ends.bind ?_
      rw [Exec.set_apply]
      dsimp only [Res.Ends]
      have e2 : v2.elems = v.elems := e2
      refine Res.Ends.bind ?_
      unfold adjustFrom
      rw [Exec.get_bind]
      refine Res.Ends.require fun hle => Res.Ends.orUb fun es hes => ?_
      dsimp only at hes hle
      rw [e2, List.eraseIdx_eq_take_drop_succ] at hes
      have hd2 : (v.elems.take i ++ v.elems.drop (i + 1)).drop i = v.elems.drop (i + 1) := by
        rw [List.drop_append_of_le_length (by rw [List.length_take]; omega), List.drop_eq_nil_of_le (by rw [List.length_take]; omega)]
        rfl
      rw [hd2] at hes
      rw [Exec.set_apply]
      dsimp only [Res.Ends]
      rw [Exec.get_bind]
      refine Res.Ends.orUb fun mv _ => Res.Ends.require fun _ => (memmove_ends _ _ _ _ _).mono (fun _ v' e' => ?_) fun _ k => k.elim
      refine Eq.trans (marks_same _ _ e') ?_
      show entriesFrom 0 ((v2.elems.eraseIdx i).take i ++ es) = (marks v).eraseIdx i
      have ht2 : (v.elems.take i ++ v.elems.drop (i + 1)).take i = v.elems.take i := by
        rw [List.take_append_of_le_length (by rw [List.length_take]; omega), List.take_take, Nat.min_self]
      have h3 : (start : Int) = (info.endOff : Int) - sz := by omega
      rw [e2, List.eraseIdx_eq_take_drop_succ, ht2, entriesFrom_append, ← h1, h3, unbumpInfos_entries _ hes, List.eraseIdx_eq_take_drop_succ,
        ← List.drop_drop (l := marks v), hdm, ← entriesFrom_take]
      rfl
  get v i r h := by
    have h : getUnchecked c v i = some r := h
    unfold getUnchecked at h
    simp only [Option.bind_eq_bind, Option.bind_eq_some_iff] at h
    obtain ⟨start, hst, info, hinfo, sz, hsz, hr⟩ := h
    have hi : i < v.elems.length := (List.getElem?_eq_some_iff.1 hinfo).1
    have h1 := startOffset_end hst
    have h2 := uncheckedSub_val hsz
    have hdrop : v.elems.drop i = info :: v.elems.drop (i + 1) := by
      rw [List.drop_eq_getElem_cons hi]
      congr 1
      rw [List.getElem?_eq_getElem hi] at hinfo
      exact Option.some.inj hinfo
    have hdm : (marks v).drop i = (info.rem, (sz : Int)) :: entriesFrom info.endOff (v.elems.drop (i + 1)) := by
      unfold marks
      rw [entriesFrom_drop i _ _ (Nat.le_of_lt hi), hdrop, ← h1, entriesFrom]
      congr 2
      omega
    refine ⟨(info.rem, (sz : Int)), ?_, ?_⟩
    · show (marks v)[i]? = _
      have := List.getElem?_drop (xs := marks v) (i := i) (j := 0)
      rw [hdm] at this
      exact this.symm
    · show r.md = A.dec info.rem sz
      unfold mkRef at hr
      split at hr
      · cases hr; rfl
      · cases hr
  note x v := rfl
  store r bs v := by
    show ((Exec.get >>= _) v).Ends _ _
    rw [Exec.get_bind]
    exact Res.Ends.orUb fun h _ => rfl

end AVec

namespace SVec
variable {sz al : Nat} {β : Type} [Inhabited β] {c : Cfg} {env : Env (Val (sizedTy sz al) β)}

omit [Inhabited β] in
theorem ticks_same (v v' : SVec sz al β) (h : v'.len = v.len) : (recording sz al β).entries v' = (recording sz al β).entries v := by
  show List.replicate v'.len () = List.replicate v.len ()
  rw [h]

/-- Lists without information are equal when they are equally long. -/
theorem units_ext : ∀ {l l' : List Unit}, l.length = l'.length → l = l'
  | [], [], _ => rfl
  | () :: _, () :: _, h => by rw [units_ext (Nat.succ.inj h)]

section
variable {κ : Type} {f : SVec sz al β → κ} (hf : ∀ v v', v'.len = v.len → f v' = f v)
include hf

theorem memmove_same (src dst n : Nat) : (memmove c src dst n : Exec (SVec sz al β) Unit).Keeps (Same f) (fun _ => True) := by
  intro v
  unfold memmove
  rw [Exec.get_bind]
  unfold Exec.require
  split
  · exact ⟨hf _ _ rfl, trivial⟩
  · trivial

theorem memwrite_same (i : Nat) (bs : List β) : (memwrite c i bs : Exec (SVec sz al β) Unit).Keeps (Same f) (fun _ => True) := by
  intro v
  unfold memwrite
  rw [Exec.get_bind]
  unfold Exec.require
  split
  · exact ⟨hf _ _ rfl, trivial⟩
  · trivial

theorem dropInPlace_same (i : Nat) : (dropInPlace c env i).Keeps (Same f) (fun _ => True) :=
  have hR := Same.pre f
  Exec.Keeps.seq hR (Exec.Keeps.get hR) fun _ => Exec.Keeps.seq hR (Exec.Keeps.require hR _) fun _ =>
    Exec.Keeps.seq hR (Exec.Keeps.modify fun _ => hf _ _ rfl) fun _ => Exec.Keeps.ite (Exec.Keeps.panic hR) (Exec.Keeps.unit hR)

theorem tryReserve_same (n : Nat) : (tryReserve c env n).Keeps (Same f) (fun _ => True) := by
  intro v
  unfold tryReserve
  rw [Exec.get_bind]
  cases stdReserve (maxSlots c sz) (v.capacity c) v.len n env.infoGrow with
  | error e => exact ⟨rfl, trivial⟩
  | ok cap =>
    refine ⟨hf _ _ ?_, trivial⟩
    split <;> rfl

theorem divCeil_same (x y : Nat) : (divCeil x y : Exec (SVec sz al β) Nat).Keeps (Same f) (fun _ => True) := by
  intro v
  unfold divCeil Exec.assert
  split
  · exact ⟨rfl, trivial⟩
  · exact rfl

theorem addBytes_same (n : Nat) : (tryReserveAdditionalBytes c env n).Keeps (Same f) (fun _ => True) :=
  have hR := Same.pre f
  Exec.Keeps.seq hR (Exec.Keeps.get hR) fun _ => Exec.Keeps.seq hR (Exec.Keeps.orUb hR fun _ _ => trivial) fun _ =>
    Exec.Keeps.seq hR (divCeil_same hf _ _) fun _ => tryReserve_same hf _

theorem shrinkTo_same_keeps (n b : Nat) : (shrinkTo env n b).Keeps (Same f) (fun _ => True) := by
  refine Exec.Keeps.seq (Same.pre f) (divCeil_same hf _ _) fun d => ?_
  intro v
  rw [Exec.get_bind]
  split
  · trivial
  · exact ⟨hf _ _ rfl, trivial⟩

end

/-- One element more. -/
theorem grow_ends {n : Nat} {v : SVec sz al β} (h : n = v.len) {F : SVec sz al β → Prop} :
    ((Exec.orUb (uncheckedAdd c n 1) >>= fun m => setLen c m) v).Ends (fun _ v' => v'.len = v.len + 1) F := by
  refine Res.Ends.orUb fun m hm => ?_
  unfold setLen
  rw [Exec.get_bind]
  refine Res.Ends.require fun _ => ?_
  show m = v.len + 1
  unfold uncheckedAdd at hm
  split at hm <;> cases hm
  rw [h]

theorem recording_lawful (c : Cfg) (sz al : Nat) : (recording sz al β).Lawful len (sizedM c sz al) where
  len v := List.length_replicate.symm
  same v v' h := ticks_same v v' h
  reserve a := {
    alignNew := fun h => by injection h with h; exact h.symm
    tryReserve := fun env n => tryReserve_same ticks_same n
    tryReserveExact := fun env n => tryReserve_same ticks_same n
    addBytes := fun env n al _ => addBytes_same ticks_same n }
  shrink env n b a := shrinkTo_same_keeps ticks_same n b
  push x v := by
    show (pushUnchecked c x v).Ends _ _
    unfold pushUnchecked
    rw [Exec.get_bind]
    refine Res.Ends.debugAssert (Res.Ends.require fun _ => Res.Ends.keep (memwrite_same (f := len) (fun _ _ h => h) _ _) (fun _ t e _ => ?_)
      fun t e => ticks_same _ _ e) fun _ => rfl
    refine (grow_ends (Eq.symm e)).mono (fun _ v' k => units_ext ?_) fun _ k => k
    show (List.replicate v'.len ()).length = (List.replicate v.len () ++ [()]).length
    rw [List.length_append, List.length_replicate, List.length_replicate, k, show t.len = v.len from e]
    rfl
  insert i x v := by
    show (insertUnchecked c i x v).Ends _ _
    unfold insertUnchecked
    rw [Exec.get_bind]
    refine Res.Ends.debugAssert (Res.Ends.orUb fun mv hmv => Res.Ends.require fun _ => ?_) fun _ => rfl
    refine Res.Ends.keep (memmove_same (f := len) (fun _ _ h => h) _ _ _) (fun _ t e _ => ?_) (fun t e => ticks_same _ _ e)
    refine Res.Ends.keep (memwrite_same (f := len) (fun _ _ h => h) _ _) (fun _ t1 e1 _ => ?_) (fun t1 e1 => ticks_same _ _ (Eq.trans e1 e))
    have e : t1.len = v.len := Eq.trans e1 e
    refine (grow_ends e.symm).mono (fun _ v' k => units_ext ?_) fun _ k => k
    show (List.replicate v'.len ()).length = ((List.replicate v.len ()).take i ++ () :: (List.replicate v.len ()).drop i).length
    have hi : i ≤ v.len := by
      unfold uncheckedSub at hmv
      split at hmv
      · assumption
      · cases hmv
    simp only [List.length_append, List.length_replicate, List.length_take, List.length_cons, List.length_drop, k, e]
    omega
  pushWith env l md v := by
    show (pushWith c env l md v).Ends _ _
    unfold pushWith
    refine Res.Ends.keep (tryReserve_same ticks_same 1) (fun r v0 e0 _ => ?_) (fun _ e => e)
    refine Res.Ends.keep (unwrapReserve_keeps (Same.pre _) r) (fun _ v1 e1 _ => ?_) (fun _ e1 => Eq.trans e1 e0)
    have e := Eq.trans e1 e0
    clear e1 e0
    rw [Exec.get_bind]
    refine Res.Ends.require fun _ => ⟨e, _, _, _, rfl, ?_, ?_, ?_⟩
    · have hR := Same.pre (len (sz := sz) (al := al) (β := β))
      exact fun bs => Exec.Keeps.seq hR (Exec.Keeps.require hR _) fun _ => memwrite_same (fun _ _ h => h) _ _
    · exact Exec.Keeps.unit (Same.pre _)
    · intro v2 e2
      have e' := Eq.trans (ticks_same _ _ e2) e
      rw [Exec.get_bind]
      refine (grow_ends rfl).mono (fun _ v' k => ?_) fun _ k => k
      rw [← show _ = (recording sz al β).entries v from e']
      refine units_ext ?_
      show (List.replicate v'.len ()).length = (List.replicate v2.len () ++ [()]).length
      rw [List.length_append, List.length_replicate, List.length_replicate, k]
      rfl
  insertWith env i l md v := by
    show (insertWithUnchecked c env i l md v).Ends _ _
    unfold insertWithUnchecked
    refine Res.Ends.keep (tryReserve_same ticks_same 1) (fun r v0 e0 _ => ?_) (fun _ e => e)
    refine Res.Ends.keep (unwrapReserve_keeps (Same.pre _) r) (fun _ v1 e1 _ => ?_) (fun _ e1 => Eq.trans e1 e0)
    have e := Eq.trans e1 e0
    clear e1 e0
    rw [Exec.get_bind]
    refine Res.Ends.require fun _ => Res.Ends.orUb fun sh hsh => Res.Ends.require fun _ => ?_
    refine Res.Ends.keep (memmove_same (f := len) (fun _ _ h => h) _ _ _) (fun _ t e1 _ => ⟨Eq.trans (ticks_same _ _ e1) e, _, _, _, rfl, ?_, ?_, ?_⟩)
      (fun t e1 => Eq.trans (ticks_same _ _ e1) e)
    · have hR := Same.pre (len (sz := sz) (al := al) (β := β))
      exact fun bs => Exec.Keeps.seq hR (Exec.Keeps.require hR _) fun _ => memwrite_same (fun _ _ h => h) _ _
    · exact memmove_same (fun _ _ h => h) _ _ _
    · intro v2 e2
      have e3 : v2.len = v1.len := Eq.trans e2 e1
      have e' := Eq.trans (ticks_same _ _ e3) e
      rw [Exec.get_bind]
      refine (grow_ends rfl).mono (fun _ v' k => ?_) fun _ k => k
      rw [← show _ = (recording sz al β).entries v from e']
      refine units_ext ?_
      show (List.replicate v'.len ()).length = ((List.replicate v2.len ()).take i ++ () :: (List.replicate v2.len ()).drop i).length
      have hi : i ≤ v1.len := by
        unfold uncheckedSub at hsh
        split at hsh
        · assumption
        · cases hsh
      simp only [List.length_append, List.length_replicate, List.length_take, List.length_cons, List.length_drop, k]
      omega
  pop env v hne := by
    show (popIntoUnchecked c env v).Ends _ _
    have hne : v.len ≠ 0 := fun h => hne (by show List.replicate v.len () = []; rw [h]; rfl)
    unfold popIntoUnchecked
    rw [Exec.get_bind]
    refine Res.Ends.debugAssert (Res.Ends.orUb fun n hn => ?_) (fun h => h hne)
    have hn : n = v.len - 1 := by
      unfold uncheckedSub at hn
      split at hn <;> cases hn
      rfl
    refine Res.Ends.bind ?_
    unfold setLen
    rw [Exec.get_bind]
    refine Res.Ends.require fun _ => ?_
    rw [Exec.set_apply]
    dsimp only [Res.Ends]
    refine Res.Ends.require fun _ => ?_
    have hd : List.replicate n () = (List.replicate v.len ()).dropLast := units_ext (by
      rw [List.length_dropLast, List.length_replicate, List.length_replicate, hn])
    refine ⟨hd, ⟨(), ?_, fun bs => trivial⟩, ⟨fun s => ?_, dropInPlace_same (fun _ _ h => h) _, ?_⟩⟩
    · show (List.replicate v.len ()).getLast? = some ()
      rw [List.getLast?_replicate, if_neg hne]
    · show (copyOut c n s).Leaves _
      unfold copyOut
      split
      · exact rfl
      · trivial
    · intro v2 e2
      exact Eq.trans (ticks_same _ _ e2) hd
  remove env i v hi := by
    show (removeIntoUnchecked c env i v).Ends _ _
    have hi : i < (List.replicate v.len ()).length := hi
    rw [List.length_replicate] at hi
    unfold removeIntoUnchecked
    rw [Exec.get_bind]
    refine Res.Ends.debugAssert (Res.Ends.orUb fun n hn => ?_) (fun h => h hi)
    have hn : n = v.len - 1 := by
      unfold uncheckedSub at hn
      split at hn <;> cases hn
      rfl
    refine Res.Ends.bind ?_
    unfold setLen
    rw [Exec.get_bind]
    refine Res.Ends.require fun _ => ?_
    rw [Exec.set_apply]
    dsimp only [Res.Ends]
    refine Res.Ends.require fun _ => Res.Ends.orUb fun mv _ => ?_
    have hd : List.replicate n () = (List.replicate v.len ()).dropLast := units_ext (by
      rw [List.length_dropLast, List.length_replicate, List.length_replicate, hn])
    have he : List.replicate n () = (List.replicate v.len ()).eraseIdx i := units_ext (by
      rw [List.length_eraseIdx, List.length_replicate, List.length_replicate, hn, if_pos hi])
    refine ⟨hd, ⟨(), ?_, fun bs => trivial⟩, ⟨fun s => ?_, dropInPlace_same (fun _ _ h => h) _, ?_⟩⟩
    · show (List.replicate v.len ())[i]? = some ()
      rw [List.getElem?_replicate, if_pos hi]
    · show (copyOut c i s).Leaves _
      unfold copyOut
      split
      · exact rfl
      · trivial
    · intro v2 e2
      refine Res.Ends.require fun _ => ?_
      exact ((memmove_same (f := len) (fun _ _ h => h) _ _ _).ends v2).mono
        (fun _ v' k => Eq.trans (ticks_same _ _ (Eq.trans k.1 e2)) he) (fun v' k => Eq.trans (ticks_same _ _ (Eq.trans k e2)) hd)
  get v i r h := by
    have h : (if i < v.len then some (⟨0, i, ()⟩ : Ref (sizedTy sz al)) else none) = some r := h
    by_cases hi : i < v.len
    · refine ⟨(), ?_, trivial⟩
      show (List.replicate v.len ())[i]? = some ()
      rw [List.getElem?_replicate, if_pos hi]
    · rw [if_neg hi] at h; cases h
  note x v := rfl
  store r bs v := by
    show ((Exec.require (bs.length = sz) >>= fun _ => memwrite c r.off bs) v).Ends _ _
    refine Res.Ends.require fun _ => ?_
    unfold memwrite
    rw [Exec.get_bind]
    exact Res.Ends.require fun _ => rfl

end SVec
end Verif
