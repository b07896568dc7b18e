import Verif.Model.PackedSet
import Verif.Cpp.Logic
/-
A packed set is a list of lists: representation invariant and simulation lemmas.
-/
namespace Boof
namespace PackedSet
variable {V : Type}

/-- Descriptors of the sets of `L` when the first element has number `st` and blocks have `s` elements. -/
def infos (s st : Nat) : List (List V) → List PackedSetInfo
  | [] => []
  | l :: L => ⟨st / s, st % s, l.length⟩ :: infos s (st + l.length) L

theorem infos_length (s st : Nat) (L : List (List V)) : (infos s st L).length = L.length := by
  induction L generalizing st with
  | nil => rfl
  | cons l L ih => simp [infos, ih]

theorem infos_append (s st : Nat) (L : List (List V)) (l : List V) :
    infos s st (L ++ [l]) = infos s st L ++ [⟨(st + L.flatten.length) / s, (st + L.flatten.length) % s, l.length⟩] := by
  induction L generalizing st with
  | nil => simp [infos]
  | cons a L ih => simp [infos, ih, Nat.add_assoc]

theorem infos_get (s st : Nat) (L : List (List V)) (k : Nat) :
    (infos s st L)[k]? = (L[k]?).map (fun l =>
      ⟨(st + (L.take k).flatten.length) / s, (st + (L.take k).flatten.length) % s, l.length⟩) := by
  induction L generalizing st k with
  | nil => simp [infos]
  | cons a L ih =>
    cases k with
    | zero => simp [infos]
    | succ k => simp [infos, ih, Nat.add_assoc]

theorem infos_congr {W : Type} (s st : Nat) (L : List (List V)) (L' : List (List W))
    (h : L.map List.length = L'.map List.length) : infos s st L = infos s st L' := by
  induction L generalizing st L' with
  | nil => cases L' with
    | nil => rfl
    | cons => simp at h
  | cons a L ih =>
    cases L' with
    | nil => simp at h
    | cons b L' =>
      simp only [List.map_cons, List.cons.injEq] at h
      simp only [infos, h.1, ih _ _ h.2]

/-- `p` represents the list of lists `L`. -/
structure Rep (p : PackedSet V) (L : List (List V)) : Prop where
  pos : 0 < p.sizeOfBlock
  rows : ∀ r ∈ p.blocks, r.length = p.sizeOfBlock
  room : p.total ≤ p.blocks.length * p.sizeOfBlock
  elems : p.blocks.flatten.take p.total = L.flatten
  total : p.total = L.flatten.length
  small : p.total < P32
  info : p.setInfo = infos p.sizeOfBlock 0 L

theorem flatten_len {s : Nat} {B : List (List V)} (hr : ∀ r ∈ B, r.length = s) : B.flatten.length = B.length * s := by
  induction B with
  | nil => simp
  | cons a B ih =>
    simp only [List.flatten_cons, List.length_append, List.length_cons]
    rw [ih (fun r h => hr r (List.mem_cons_of_mem _ h)), hr a (List.mem_cons_self ..), Nat.succ_mul]; omega

theorem flatten_get {s : Nat} (h0 : 0 < s) {B : List (List V)} (hr : ∀ r ∈ B, r.length = s) (i : Nat) :
    B.flatten[i]? = (B[i / s]?).bind (fun r => r[i % s]?) := by
  induction B generalizing i with
  | nil => simp
  | cons a B ih =>
    have ha := hr a (List.mem_cons_self ..)
    rw [List.flatten_cons]
    by_cases hi : i < s
    · rw [List.getElem?_append_left (by omega), Nat.div_eq_of_lt hi, Nat.mod_eq_of_lt hi]; rfl
    · rw [List.getElem?_append_right (by omega), ih (fun r h => hr r (List.mem_cons_of_mem _ h)), ha]
      have e1 : i / s = (i - s) / s + 1 := by
        rw [← Nat.add_div_right _ h0]; congr 1; omega
      have e2 : i % s = (i - s) % s := by
        rw [Nat.mod_eq_sub_mod (by omega)]
      rw [e1, e2, List.getElem?_cons_succ]

theorem flatten_set {s : Nat} (h0 : 0 < s) {B : List (List V)} (hr : ∀ r ∈ B, r.length = s) {i : Nat} {r : List V}
    (hb : B[i / s]? = some r) (v : V) :
    (B.set (i / s) (r.set (i % s) v)).flatten = B.flatten.set i v := by
  induction B generalizing i with
  | nil => simp at hb
  | cons a B ih =>
    have ha := hr a (List.mem_cons_self ..)
    by_cases hi : i < s
    · rw [Nat.div_eq_of_lt hi] at *
      rw [Nat.mod_eq_of_lt hi]
      simp only [List.getElem?_cons_zero, Option.some.injEq] at hb
      subst hb
      rw [List.set_cons_zero, List.flatten_cons, List.flatten_cons, List.set_append, if_pos (by omega)]
    · have e1 : i / s = (i - s) / s + 1 := by
        rw [← Nat.add_div_right _ h0]; congr 1; omega
      have e2 : i % s = (i - s) % s := by
        rw [Nat.mod_eq_sub_mod (by omega)]
      rw [e1] at hb ⊢
      rw [List.getElem?_cons_succ] at hb
      rw [e2, List.set_cons_succ, List.flatten_cons, List.flatten_cons,
        ih (fun r h => hr r (List.mem_cons_of_mem _ h)) hb, List.set_append, if_neg (by omega), ha]

theorem cell_eq {p : PackedSet V} {L : List (List V)} (h : Rep p L) (b : Nat) : p.cell b = p.blocks.flatten[b]? := by
  unfold cell
  rw [if_neg (by have := h.pos; omega), flatten_get h.pos h.rows]

theorem new_rep (junk : V) {s : Nat} (hs : 0 < s) : Rep (PackedSet.new junk s) [] := by
  refine ⟨hs, ?_, Nat.zero_le _, by simp [PackedSet.new], rfl, (by decide : 0 < P32), rfl⟩
  intro r hr
  simp only [PackedSet.new, List.mem_singleton] at hr
  subst hr; simp [PackedSet.new]

theorem clear_rep {p : PackedSet V} {L : List (List V)} (h : Rep p L) :
    ∃ q, p.clear = .ok () q ∧ Rep q [] ∧ q.sizeOfBlock = p.sizeOfBlock := by
  refine ⟨_, rfl, ⟨h.pos, h.rows, Nat.zero_le _, by simp, rfl, (by decide : 0 < P32), rfl⟩, rfl⟩

theorem start_rep {p : PackedSet V} {L : List (List V)} (h : Rep p L) :
    ∃ q, p.startNewSet = .ok () q ∧ Rep q (L ++ [[]]) ∧ q.sizeOfBlock = p.sizeOfBlock := by
  unfold startNewSet
  rw [if_neg (by have := h.pos; omega)]
  refine ⟨_, rfl, ⟨h.pos, h.rows, h.room, ?_, ?_, h.small, ?_⟩, rfl⟩
  · simpa using h.elems
  · simpa using h.total
  · simp only []
    rw [infos_append, h.info, h.total]; simp

theorem add_spec (junk e : V) {p : PackedSet V} {L : List (List V)} (h : Rep p L) (ht : p.total + 1 < P32) :
    ∃ q, p.addElement junk e = .ok () q ∧ q.sizeOfBlock = p.sizeOfBlock ∧ q.setInfo = p.setInfo ∧
      (∀ r ∈ q.blocks, r.length = q.sizeOfBlock) ∧ q.total = p.total + 1 ∧
      q.total ≤ q.blocks.length * q.sizeOfBlock ∧ q.blocks.flatten.take q.total = L.flatten ++ [e] := by
  have h0 := h.pos
  have hroom := h.room
  -- the state after the optional growth
  have key : ∀ B : List (List V), (∀ r ∈ B, r.length = p.sizeOfBlock) →
      B.flatten.take p.total = L.flatten → p.total < B.length * p.sizeOfBlock →
      ∃ row, B[p.total / p.sizeOfBlock]? = some row ∧ row.length = p.sizeOfBlock ∧
        (∀ r ∈ B.set (p.total / p.sizeOfBlock) (row.set (p.total % p.sizeOfBlock) e), r.length = p.sizeOfBlock) ∧
        (B.set (p.total / p.sizeOfBlock) (row.set (p.total % p.sizeOfBlock) e)).flatten.take (p.total + 1)
          = L.flatten ++ [e] := by
    intro B hB hE hlt
    have hd : p.total / p.sizeOfBlock < B.length := Nat.div_lt_of_lt_mul (by rw [Nat.mul_comm]; exact hlt)
    have hrow : B[p.total / p.sizeOfBlock]? = some B[p.total / p.sizeOfBlock] := List.getElem?_eq_getElem hd
    have hlen := hB _ (List.getElem_mem hd)
    refine ⟨_, hrow, hlen, ?_, ?_⟩
    · intro r hr
      rcases List.mem_or_eq_of_mem_set hr with hr | hr
      · exact hB r hr
      · rw [hr, List.length_set]; exact hlen
    · rw [flatten_set h0 hB hrow, List.take_add_one, List.take_set_of_le (Nat.le_refl _), hE,
        List.getElem?_set_self (by rw [flatten_len hB]; exact hlt)]
      rfl
  unfold addElement
  rw [if_neg (by omega)]
  simp only []
  by_cases hb : p.total / p.sizeOfBlock = p.blocks.length
  · rw [if_pos hb]
    have hB : ∀ r ∈ p.blocks ++ [List.replicate p.sizeOfBlock junk], r.length = p.sizeOfBlock := by
      intro r hr
      rcases List.mem_append.mp hr with hr | hr
      · exact h.rows r hr
      · simp only [List.mem_singleton] at hr; subst hr; simp
    have hfl : p.total ≤ p.blocks.flatten.length := by rw [flatten_len h.rows]; exact hroom
    obtain ⟨row, e1, e2, e3, e4⟩ := key (p.blocks ++ [List.replicate p.sizeOfBlock junk]) hB
      (by rw [List.flatten_append, List.take_append_of_le_length hfl]; exact h.elems)
      (by rw [List.length_append, Nat.add_mul]; simp only [List.length_singleton, Nat.one_mul]; omega)
    simp only [e1]
    rw [if_pos (by rw [e2]; exact Nat.mod_lt _ h0), wrap32_of_lt ht]
    refine ⟨_, rfl, rfl, rfl, e3, rfl, ?_, e4⟩
    simp only [List.length_set, List.length_append, List.length_singleton, Nat.add_mul]; omega
  · rw [if_neg hb]
    have hlt : p.total < p.blocks.length * p.sizeOfBlock := by
      rcases Nat.lt_or_ge p.total (p.blocks.length * p.sizeOfBlock) with h1 | h1
      · exact h1
      · exfalso; apply hb
        have : p.total = p.blocks.length * p.sizeOfBlock := by omega
        rw [this]; exact Nat.mul_div_cancel _ h0
    obtain ⟨row, e1, e2, e3, e4⟩ := key p.blocks h.rows h.elems hlt
    simp only [e1]
    rw [if_pos (by rw [e2]; exact Nat.mod_lt _ h0), wrap32_of_lt ht]
    refine ⟨_, rfl, rfl, rfl, e3, rfl, ?_, e4⟩
    simp only [List.length_set]; omega

/-- Pushing when the last set is `l`. -/
theorem push_rep (junk e : V) {p : PackedSet V} {L : List (List V)} {l : List V} (h : Rep p (L ++ [l]))
    (ht : p.total + 1 < P32) :
    ∃ q, p.pushTail junk e = .ok () q ∧ Rep q (L ++ [l ++ [e]]) ∧ q.sizeOfBlock = p.sizeOfBlock ∧
      q.total = p.total + 1 := by
  obtain ⟨q, e1, e2, e3, e4, e5, e6, e7⟩ := add_spec junk e h ht
  have hi : p.setInfo = infos p.sizeOfBlock 0 L ++
      [⟨(0 + L.flatten.length) / p.sizeOfBlock, (0 + L.flatten.length) % p.sizeOfBlock, l.length⟩] := by
    rw [h.info, infos_append]
  unfold pushTail
  rw [if_neg (by rw [hi]; simp)]
  simp only [e1]
  unfold bumpTail
  rw [e3, hi, List.getLast?_concat]
  simp only [List.dropLast_concat]
  have hll : l.length + 1 < P32 := by
    have := h.total
    simp only [List.flatten_append, List.length_append, List.flatten_cons, List.flatten_nil, List.append_nil] at this
    omega
  rw [wrap32_of_lt hll]
  refine ⟨_, rfl, ⟨by rw [e2]; exact h.pos, e4, e6, ?_, ?_, by rw [e5]; exact ht, ?_⟩, e2, e5⟩
  · simp only [e7]; simp
  · have := h.total
    simp only [e5, this]; simp; omega
  · rw [infos_append, e2]; simp

/-- Pushing on an empty collection starts a set. -/
theorem push_rep_nil (junk e : V) {p : PackedSet V} (h : Rep p []) (ht : p.total + 1 < P32) :
    ∃ q, p.pushTail junk e = .ok () q ∧ Rep q [[e]] ∧ q.sizeOfBlock = p.sizeOfBlock ∧ q.total = p.total + 1 := by
  obtain ⟨p1, s1, s2, s3⟩ := start_rep h
  have et : p1.total = p.total := by rw [s2.total, h.total]; simp
  obtain ⟨q, e1, e2, e3, e4⟩ := push_rep (L := []) junk e s2 (by omega)
  refine ⟨q, ?_, e2, by omega, by omega⟩
  unfold pushTail at *
  rw [if_neg (by rw [s2.info]; simp [infos])] at e1
  rw [if_pos (by rw [h.info]; rfl), s1]
  exact e1

theorem remove_rep {p : PackedSet V} {L : List (List V)} {l : List V} (h : Rep p (L ++ [l])) :
    ∃ q, p.removeTail = .ok () q ∧ Rep q L ∧ q.sizeOfBlock = p.sizeOfBlock ∧ q.total + l.length = p.total := by
  have hi : p.setInfo = infos p.sizeOfBlock 0 L ++
      [⟨(0 + L.flatten.length) / p.sizeOfBlock, (0 + L.flatten.length) % p.sizeOfBlock, l.length⟩] := by
    rw [h.info, infos_append]
  have htot : p.total = L.flatten.length + l.length := by
    have := h.total
    simpa using this
  have hroom := h.room
  have hsm := h.small
  unfold removeTail
  rw [hi, List.getLast?_concat]
  simp only [List.dropLast_concat]
  rw [sub32_of_le (by omega) h.small]
  refine ⟨_, rfl, ⟨h.pos, h.rows, by simp only []; omega, ?_, by simp only []; omega, by simp only []; omega, rfl⟩, rfl, by simp only []; omega⟩
  simp only []
  have := h.elems
  have h2 : (p.blocks.flatten.take p.total).take (p.total - l.length) = L.flatten := by
    rw [this]; simp only [List.flatten_append, List.flatten_cons, List.flatten_nil, List.append_nil]
    rw [show p.total - l.length = L.flatten.length by omega, List.take_left]
  rw [List.take_take] at h2
  rw [← h2]; congr 1; omega

theorem remove_rep_nil {p : PackedSet V} (h : Rep p []) : p.removeTail = .ok () p := by
  unfold removeTail; rw [h.info]; rfl

/-- Where element `e` of set `k` is. -/
theorem elem_pos {p : PackedSet V} {L : List (List V)} (h : Rep p L) {k : Nat} {l : List V} (hk : L[k]? = some l)
    {e : Nat} (he : e < l.length) :
    ∃ s, p.setInfo[k]? = some s ∧ s.size = l.length ∧ p.pos s e = (L.take k).flatten.length + e ∧
      (L.take k).flatten.length + e < p.total ∧
      p.blocks.flatten[(L.take k).flatten.length + e]? = l[e]? := by
  have hklt : k < L.length := by
    rcases Nat.lt_or_ge k L.length with h1 | h1
    · exact h1
    · rw [List.getElem?_eq_none h1] at hk; cases hk
  have hL : L.flatten = (L.take k).flatten ++ (l ++ (L.drop (k + 1)).flatten) := by
    rw [List.getElem?_eq_getElem hklt, Option.some.injEq] at hk
    rw [← List.flatten_cons, ← List.flatten_append, ← hk]; simp
  have hlt : (L.take k).flatten.length + e < p.total := by
    rw [h.total, hL, List.length_append, List.length_append]; omega
  have hsm := h.small
  refine ⟨⟨(0 + (L.take k).flatten.length) / p.sizeOfBlock, (0 + (L.take k).flatten.length) % p.sizeOfBlock, l.length⟩,
    ?_, rfl, ?_, hlt, ?_⟩
  · rw [h.info, infos_get, hk]; rfl
  · unfold PackedSet.pos
    simp only [Nat.zero_add]
    rw [Nat.mul_comm, Nat.div_add_mod]
    exact wrap32_of_lt (by omega)
  · have h1 : (p.blocks.flatten.take p.total)[(L.take k).flatten.length + e]? =
        p.blocks.flatten[(L.take k).flatten.length + e]? := by rw [List.getElem?_take, if_pos hlt]
    rw [← h1, h.elems, hL, List.getElem?_append_right (Nat.le_add_right _ _), Nat.add_sub_cancel_left,
      List.getElem?_append_left he]

theorem info_none {p : PackedSet V} {L : List (List V)} (h : Rep p L) {k : Nat} (hk : L.length ≤ k) :
    p.setInfo[k]? = none := by
  rw [h.info]; exact List.getElem?_eq_none (by rw [infos_length]; exact hk)

theorem info_some {p : PackedSet V} {L : List (List V)} (h : Rep p L) {k : Nat} {l : List V} (hk : L[k]? = some l) :
    ∃ s, p.setInfo[k]? = some s ∧ s.size = l.length := by
  rw [h.info, infos_get, hk]; exact ⟨_, rfl, rfl⟩

theorem load_rep {p : PackedSet V} {L : List (List V)} (h : Rep p L) {k : Nat} {l : List V} (hk : L[k]? = some l)
    {s : PackedSetInfo} (hs : p.setInfo[k]? = some s) (out : List V) (n : Nat) (hn : n ≤ l.length) :
    loadLoop p s out n = some (out ++ l.take n) := by
  induction n with
  | zero => simp [loadLoop]
  | succ n ih =>
    obtain ⟨s', e1, e2, e3, e4, e5⟩ := elem_pos h hk (e := n) (by omega)
    rw [e1] at hs; cases hs
    simp only [loadLoop, ih (by omega), Option.bind_some, cell_eq h, e3, e5]
    rw [List.getElem?_eq_getElem (by omega)]
    simp

theorem write_rep {p : PackedSet V} {L : List (List V)} (h : Rep p L) {k : Nat} {l : List V} (hk : L[k]? = some l)
    {s : PackedSetInfo} (hs : p.setInfo[k]? = some s) (v : List V) (hv : v.length = l.length) (n : Nat)
    (hn : n ≤ l.length) :
    ∃ q, writeLoop s v p n = some q ∧ Rep q (L.set k (v.take n ++ l.drop n)) ∧ q.sizeOfBlock = p.sizeOfBlock ∧
      q.setInfo = p.setInfo ∧ q.total = p.total := by
  have hklt : k < L.length := by
    rcases Nat.lt_or_ge k L.length with h1 | h1
    · exact h1
    · rw [List.getElem?_eq_none h1] at hk; cases hk
  have hkg : L[k] = l := by rw [List.getElem?_eq_getElem hklt, Option.some.injEq] at hk; exact hk
  induction n with
  | zero =>
    refine ⟨p, rfl, ?_, rfl, rfl, rfl⟩
    have : L.set k (v.take 0 ++ l.drop 0) = L := by
      simp only [List.take_zero, List.nil_append, List.drop_zero, ← hkg]
      exact List.set_getElem_self hklt
    rw [this]; exact h
  | succ n ih =>
    obtain ⟨q, e1, hq, e2, e3, e4⟩ := ih (by omega)
    have hk' : (L.set k (v.take n ++ l.drop n))[k]? = some (v.take n ++ l.drop n) :=
      List.getElem?_set_self hklt
    have hlen : (v.take n ++ l.drop n).length = l.length := by simp; omega
    obtain ⟨s', f1, f2, f3, f4, f5⟩ := elem_pos hq hk' (e := n) (by omega)
    have : s' = s := by rw [e3, hs] at f1; exact (Option.some.inj f1).symm
    subst this
    have hpre : ((L.set k (v.take n ++ l.drop n)).take k).flatten = (L.take k).flatten := by
      rw [List.take_set_of_le (Nat.le_refl _)]
    rw [hpre] at f3 f4 f5
    simp only [writeLoop, e1, Option.bind_some, cell_eq hq, f3, f5]
    rw [List.getElem?_eq_getElem (by omega), List.getElem?_eq_getElem (by omega : n < v.length)]
    simp only []
    refine ⟨_, rfl, ?_⟩
    have hdiv : ∃ r, q.blocks[((L.take k).flatten.length + n) / q.sizeOfBlock]? = some r := by
      have hlt : ((L.take k).flatten.length + n) / q.sizeOfBlock < q.blocks.length := by
        have := hq.room
        apply Nat.div_lt_of_lt_mul; rw [Nat.mul_comm]; omega
      exact ⟨_, List.getElem?_eq_getElem hlt⟩
    obtain ⟨r, hr⟩ := hdiv
    have hset : q.setCell ((L.take k).flatten.length + n) v[n] = (⟨
        q.blocks.set (((L.take k).flatten.length + n) / q.sizeOfBlock)
          (r.set (((L.take k).flatten.length + n) % q.sizeOfBlock) v[n]), q.sizeOfBlock, q.total, q.setInfo⟩ : PackedSet V) := by
      unfold PackedSet.setCell; rw [hr]
    rw [hset]
    have htk : (v.take n).length = n := by rw [List.length_take]; omega
    have hnew : (v.take (n+1) ++ l.drop (n+1)) = (v.take n ++ l.drop n).set n v[n] := by
      rw [List.set_append, if_neg (by omega), List.take_succ_eq_append_getElem (by omega),
        show n - (v.take n).length = 0 by omega, List.drop_eq_getElem_cons (by omega : n < l.length),
        List.set_cons_zero, List.append_assoc]
      rfl
    have hfl : (L.set k (v.take (n+1) ++ l.drop (n+1))).flatten =
        (L.set k (v.take n ++ l.drop n)).flatten.set ((L.take k).flatten.length + n) v[n] := by
      have d : ∀ w : List V, (L.set k w).flatten = (L.take k).flatten ++ (w ++ (L.drop (k+1)).flatten) := by
        intro w
        rw [List.set_eq_take_append_cons_drop, if_pos hklt, List.flatten_append, List.flatten_cons]
      have hn' : n < (v.take n ++ l.drop n).length := by rw [hlen]; omega
      rw [d, d, hnew, List.set_append_right _ _ (Nat.le_add_right _ _), Nat.add_sub_cancel_left,
        List.set_append_left _ _ hn']
    refine ⟨⟨hq.pos, ?_, ?_, ?_, ?_, hq.small, ?_⟩, e2, e3, e4⟩
    · intro a ha
      rcases List.mem_or_eq_of_mem_set ha with ha | ha
      · exact hq.rows a ha
      · rw [ha, List.length_set]; exact hq.rows r (List.mem_of_getElem? hr)
    · simp only [List.length_set]; exact hq.room
    · simp only []
      rw [flatten_set hq.pos hq.rows hr, hfl, ← hq.elems, List.take_set]
    · rw [hfl, List.length_set]; exact hq.total
    · rw [hq.info]
      apply infos_congr
      rw [List.map_set, List.map_set, hnew, List.length_set]

end PackedSet
end Boof
