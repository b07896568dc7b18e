import Verif.Spec.PackedSet
import Verif.Proofs.PackedSet
/-
C14-C16: packed sets.
-/
namespace Boof
variable {V : Type}
open PackedSet

theorem pushLast_concat (e : V) (L : List (List V)) (l : List V) :
    pushLast e (L ++ [l]) = L ++ [l ++ [e]] := by
  induction L with
  | nil => rfl
  | cons a L ih =>
    cases L with
    | nil => simp [pushLast]
    | cons b L => simp only [List.cons_append] at *; rw [pushLast, ih]; simp

theorem length_pushLast (e : V) (L : List (List V)) : (pushLast e L).flatten.length = L.flatten.length + 1 := by
  rcases List.eq_nil_or_concat L with rfl | ⟨L, l, rfl⟩
  · rfl
  · rw [List.concat_eq_append, pushLast_concat]; simp; omega

/-- A represented list of lists is what the API shows (C15 is part of this). -/
theorem observes_of_rep {p : PackedSet V} {L : List (List V)} (h : Rep p L) : Observes p L := by
  refine ⟨by rw [h.info, infos_length], ?_, ?_, ?_, ?_, ?_, ?_, ?_⟩
  · intro hl; unfold numberOfSets; rw [h.info, infos_length]; exact wrap32_of_lt hl
  · unfold sizeOfTail
    rcases List.eq_nil_or_concat L with rfl | ⟨L, l, rfl⟩
    · rw [h.info]; rfl
    · rw [List.concat_eq_append, h.info, List.concat_eq_append, infos_append, List.getLast?_concat, List.getLast?_concat]
      rfl
  · intro k s hs
    rw [h.info, infos_get] at hs
    cases hl : L[k]? with
    | none => rw [hl] at hs; cases hs
    | some l => rw [hl] at hs; cases hs; rfl
  · intro k e v hv
    cases hl : L[k]? with
    | none => rw [hl] at hv; cases hv
    | some l =>
      rw [hl] at hv
      have he : e < l.length := by
        rcases Nat.lt_or_ge e l.length with h1 | h1
        · exact h1
        · simp only [Option.bind_some] at hv; rw [List.getElem?_eq_none h1] at hv; cases hv
      obtain ⟨s, e1, e2, e3, -, e5⟩ := elem_pos h hl he
      unfold PackedSet.at'
      simp only [e1]
      rw [if_neg (by omega), cell_eq h, e3, e5]
      simp only [Option.bind_some] at hv
      rw [hv]
  · intro k e hv
    cases hl : L[k]? with
    | none =>
      unfold PackedSet.at'
      rw [info_none h (by simpa using hl)]
    | some l =>
      rw [hl] at hv
      simp only [Option.bind_some, List.getElem?_eq_none_iff] at hv
      obtain ⟨s, e1, e2⟩ := info_some h hl
      unfold PackedSet.at'
      simp only [e1]
      rw [if_pos (by omega)]
  · intro k l out hl
    obtain ⟨s, e1, e2⟩ := info_some h hl
    unfold PackedSet.loadSet
    simp only [e1]
    rw [e2, load_rep h hl e1 out l.length (Nat.le_refl _), List.take_length]
  · intro k out hl
    unfold PackedSet.loadSet
    rw [info_none h (by simpa using hl)]

/-- One operation does to the object what it does to the list of lists. -/
theorem step_rep (junk : V) {p : PackedSet V} {L : List (List V)} (h : Rep p L) (op : POp V)
    (hb : ((op.spec L).getD L).flatten.length < P32) :
    match op.spec L with
    | some L' => ∃ q, op.run junk p = .ok () q ∧ Rep q L' ∧ q.sizeOfBlock = p.sizeOfBlock
    | none => op.run junk p = .throw p := by
  cases op with
  | clear => exact clear_rep h
  | start => exact start_rep h
  | push e =>
    simp only [POp.spec, POp.run]
    simp only [POp.spec, Option.getD_some, length_pushLast] at hb
    rw [← h.total] at hb
    rcases List.eq_nil_or_concat L with rfl | ⟨L, l, rfl⟩
    · obtain ⟨q, e1, e2, e3, -⟩ := push_rep_nil junk e h hb
      exact ⟨q, e1, e2, e3⟩
    · rw [List.concat_eq_append] at *
      obtain ⟨q, e1, e2, e3, -⟩ := push_rep junk e h hb
      exact ⟨q, e1, by rw [pushLast_concat]; exact e2, e3⟩
  | remove =>
    simp only [POp.spec, POp.run]
    rcases List.eq_nil_or_concat L with rfl | ⟨L, l, rfl⟩
    · exact ⟨p, remove_rep_nil h, h, rfl⟩
    · rw [List.concat_eq_append] at *
      obtain ⟨q, e1, e2, e3, -⟩ := remove_rep h
      exact ⟨q, e1, by rw [List.dropLast_concat]; exact e2, e3⟩
  | write i v =>
    simp only [POp.spec, POp.run]
    by_cases hl : L[i]?.map List.length = some v.length
    · rw [if_pos hl]
      cases hk : L[i]? with
      | none => rw [hk] at hl; cases hl
      | some l =>
        rw [hk] at hl
        simp only [Option.map_some, Option.some.injEq] at hl
        obtain ⟨s, e1, e2⟩ := info_some h hk
        obtain ⟨q, w1, w2, w3, -⟩ := write_rep h hk e1 v hl.symm l.length (Nat.le_refl _)
        refine ⟨q, ?_, ?_, w3⟩
        · unfold PackedSet.writeSet
          simp only [e1]
          rw [if_neg (by omega), e2, w1]
        · rw [List.take_of_length_le (by omega), List.drop_length, List.append_nil] at w2
          exact w2
    · rw [if_neg hl]
      unfold PackedSet.writeSet
      cases hk : L[i]? with
      | none => rw [info_none h (by simpa using hk)]
      | some l =>
        rw [hk] at hl
        simp only [Option.map_some, Option.some.injEq] at hl
        obtain ⟨s, e1, e2⟩ := info_some h hk
        simp only [e1]
        rw [if_pos (by omega)]

theorem run_rep (junk : V) (ops : List (POp V)) {p : PackedSet V} {L : List (List V)} (h : Rep p L)
    (hb : Bounded ops L) : ∃ q, packedRun junk ops p = some q ∧ Rep q (specRun ops L) := by
  induction ops generalizing p L with
  | nil => exact ⟨p, rfl, h⟩
  | cons op ops ih =>
    have h1 : ((op.spec L).getD L).flatten.length < P32 := hb 1
    have h2 : Bounded ops ((op.spec L).getD L) := fun n => hb (n + 1)
    have hs := step_rep junk h op h1
    cases ho : op.spec L with
    | none =>
      rw [ho] at hs h2
      obtain ⟨q, e, r⟩ := ih h h2
      refine ⟨q, ?_, ?_⟩
      · unfold packedRun; rw [hs]; exact e
      · simpa [specRun, ho] using r
    | some L' =>
      rw [ho] at hs h2
      obtain ⟨p', e1, e2, -⟩ := hs
      obtain ⟨q, e, r⟩ := ih e2 h2
      refine ⟨q, ?_, ?_⟩
      · unfold packedRun; rw [e1]; exact e
      · simpa [specRun, ho] using r

/-! ## C14 -/

/-- After any history on a new object with any positive block size, every query answers as for the list of lists
obtained by the same history.  The only bound is that the element counter is a 32-bit number. -/
theorem C14_refines_list_of_lists (junk : V) {s : Nat} (hs : 0 < s) (ops : List (POp V)) (hb : Bounded ops []) :
    ∃ p, packedRun junk ops (PackedSet.new junk s) = some p ∧ Observes p (specRun ops []) := by
  obtain ⟨p, e, r⟩ := run_rep junk ops (new_rep junk hs) hb
  exact ⟨p, e, observes_of_rep r⟩

/-- ... and at every point of such a history each operation is accepted or refused as the list of lists says,
without effect when refused. -/
theorem C14_accepts (junk : V) {s : Nat} (hs : 0 < s) (ops : List (POp V)) (op : POp V)
    (hb : Bounded (ops ++ [op]) []) :
    ∃ p, packedRun junk ops (PackedSet.new junk s) = some p ∧
      (op.spec (specRun ops []) = none → op.run junk p = .throw p) ∧
      (∀ L', op.spec (specRun ops []) = some L' → ∃ q, op.run junk p = .ok () q ∧ Observes q L') := by
  have hb1 : Bounded ops ([] : List (List V)) := by
    intro n
    rcases Nat.le_total n ops.length with h | h
    · have := hb n
      rw [List.take_append_of_le_length h] at this; exact this
    · rw [List.take_of_length_le h]
      have := hb ops.length
      rw [List.take_append_of_le_length (Nat.le_refl _), List.take_length] at this; exact this
  obtain ⟨p, e, r⟩ := run_rep junk ops (new_rep junk hs) hb1
  have hb2 : ((op.spec (specRun ops [])).getD (specRun ops [])).flatten.length < P32 := by
    have := hb (ops.length + 1)
    rw [List.take_of_length_le (by simp)] at this
    simpa [specRun] using this
  have hst := step_rep junk r op hb2
  refine ⟨p, e, ?_, ?_⟩
  · intro hn; rw [hn] at hst; exact hst
  · intro L' hn; rw [hn] at hst
    obtain ⟨q, e1, e2, -⟩ := hst
    exact ⟨q, e1, observes_of_rep e2⟩

/-- `PackedSet()` is such an object, with blocks of 2000 elements. -/
theorem C14_default (junk : V) (ops : List (POp V)) (hb : Bounded ops []) :
    ∃ p, packedRun junk ops (PackedSet.newDefault junk) = some p ∧ Observes p (specRun ops []) :=
  C14_refines_list_of_lists junk (by decide) ops hb

/-- With block size 0 the first `push_tail` divides by zero. -/
theorem C14_zero_block_refuted (junk e : V) : (PackedSet.new junk 0).pushTail junk e = .ub := rfl

/-- A history with several sets spanning blocks of size 2, a removal and a rewrite. -/
example : Bounded [POp.push 1, .push 2, .push 3, .start, .push (4:Int), .start, .remove, .write 0 [7, 8, 9]] [] ∧
    specRun [POp.push 1, .push 2, .push 3, .start, .push (4:Int), .start, .remove, .write 0 [7, 8, 9]] []
      = [[7, 8, 9], [4]] := by
  refine ⟨fun n => ?_, by decide⟩
  rcases n with _ | _ | _ | _ | _ | _ | _ | _ | n <;> simp [specRun, POp.spec, pushLast, P32]

/-! ## C15 -/

/-- In every reachable state `at(s,e)` is element `e` of set `s`, and throws exactly when there is none; the
collection is unchanged. -/
theorem C15_at (junk : V) {s : Nat} (hs : 0 < s) (ops : List (POp V)) (hb : Bounded ops []) (k e : Nat) :
    ∃ p, packedRun junk ops (PackedSet.new junk s) = some p ∧
      p.at' k e = match ((specRun ops [])[k]?).bind (fun l => l[e]?) with
        | some v => .ok v p
        | none => .throw p := by
  obtain ⟨p, h1, h2⟩ := C14_refines_list_of_lists junk hs ops hb
  refine ⟨p, h1, ?_⟩
  split
  · exact h2.at_ok _ _ _ (by assumption)
  · exact h2.at_throw _ _ (by assumption)

/-- `load_set` appends exactly the set's elements in order, or throws exactly for a bad index. -/
theorem C15_load (junk : V) {s : Nat} (hs : 0 < s) (ops : List (POp V)) (hb : Bounded ops []) (k : Nat)
    (out : List V) :
    ∃ p, packedRun junk ops (PackedSet.new junk s) = some p ∧
      p.loadSet k out = match (specRun ops [])[k]? with
        | some l => .ok (out ++ l) p
        | none => .throw p := by
  obtain ⟨p, h1, h2⟩ := C14_refines_list_of_lists junk hs ops hb
  refine ⟨p, h1, ?_⟩
  split
  · exact h2.load_ok _ _ _ (by assumption)
  · exact h2.load_throw _ _ (by assumption)

/-! ## C16 -/

/-- `write_set` with matching length replaces that set and no other; otherwise it throws and nothing changes. -/
theorem C16_write_set (junk : V) {s : Nat} (hs : 0 < s) (ops : List (POp V)) (hb : Bounded ops []) (k : Nat)
    (v : List V) :
    ∃ p, packedRun junk ops (PackedSet.new junk s) = some p ∧
      (∀ l, (specRun ops [])[k]? = some l → l.length = v.length →
        ∃ q, p.writeSet k v = .ok () q ∧ q.loadSet k [] = .ok v q ∧ q.setInfo = p.setInfo ∧
          ∀ j, j ≠ k → ∀ l', p.loadSet j [] = .ok l' p ↔ q.loadSet j [] = .ok l' q) ∧
      ((∀ l, (specRun ops [])[k]? = some l → l.length ≠ v.length) → p.writeSet k v = .throw p) := by
  obtain ⟨p, h1, r⟩ := run_rep junk ops (new_rep junk hs) hb
  refine ⟨p, h1, ?_, ?_⟩
  · intro l hl hlen
    have hlt : k < (specRun ops ([] : List (List V))).length := by
      rcases Nat.lt_or_ge k (specRun ops ([] : List (List V))).length with h | h
      · exact h
      · rw [List.getElem?_eq_none h] at hl; cases hl
    obtain ⟨s', e1, e2⟩ := info_some r hl
    obtain ⟨q, w1, w2, w3, w4, -⟩ := write_rep r hl e1 v hlen.symm l.length (Nat.le_refl _)
    rw [List.take_of_length_le (by omega), List.drop_length, List.append_nil] at w2
    have ho := observes_of_rep w2
    have hp := observes_of_rep r
    refine ⟨q, ?_, ?_, w4, ?_⟩
    · unfold PackedSet.writeSet
      simp only [e1]
      rw [if_neg (by omega), e2, w1]
    · have := ho.load_ok k v [] (List.getElem?_set_self hlt)
      simpa using this
    · intro j hj l'
      have hget : ((specRun ops []).set k v)[j]? = (specRun ops [])[j]? :=
        List.getElem?_set_ne (fun e => hj e.symm)
      cases hlj : (specRun ops ([] : List (List V)))[j]? with
      | none =>
        rw [hp.load_throw j [] hlj, ho.load_throw j [] (by rw [hget]; exact hlj)]
        exact ⟨(nomatch ·), (nomatch ·)⟩
      | some lj =>
        rw [hp.load_ok j lj [] hlj, ho.load_ok j lj [] (by rw [hget]; exact hlj)]
        simp
  · intro hn
    have hb2 : (((POp.write k v).spec (specRun ops [])).getD (specRun ops [])).flatten.length < P32 := by
      have hno : (POp.write k v).spec (specRun ops []) = none := by
        simp only [POp.spec]
        rw [if_neg]
        intro e
        cases hl : (specRun ops ([] : List (List V)))[k]? with
        | none => rw [hl] at e; cases e
        | some l => rw [hl] at e; simp only [Option.map_some, Option.some.injEq] at e; exact hn l hl e
      rw [hno, Option.getD_none, ← r.total]
      exact r.small
    have hst := step_rep junk r (.write k v) hb2
    have hno : (POp.write k v).spec (specRun ops []) = none := by
      simp only [POp.spec]
      rw [if_neg]
      intro e
      cases hl : (specRun ops ([] : List (List V)))[k]? with
      | none => rw [hl] at e; cases e
      | some l => rw [hl] at e; simp only [Option.map_some, Option.some.injEq] at e; exact hn l hl e
    rw [hno] at hst
    exact hst

end Boof
